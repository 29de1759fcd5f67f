import Verif.Proof.Ecef64

/-!
# `ecef2lla` in doubles close to the axis of the Earth

The cosine of the double latitude is not that of the true one there.
-/

set_option exponentiation.threshold 4096

namespace Dis.Geo

open WGS84

/-! ## Doubles near a right angle -/

theorem multiple_of_ulp {x : F64} (h : 1 ≤ |ofDouble x|) : ∃ k : ℕ, |ofDouble x| = k / 2 ^ 52 := by
  have hU : (0 : ℝ) < 2 ^ 1074 := by positivity
  have e1 : |ofDouble x| = (x.mag : ℝ) / 2 ^ 1074 := by
    unfold ofDouble
    rw [abs_div, abs_of_pos hU, ← natAbs_cast, F64.units_abs]
  rw [e1, le_div_iff₀ hU, one_mul] at h
  have h2 : 2 ^ 1074 ≤ x.mag := by exact_mod_cast h
  have hf := x.frac_lt
  have he : 1023 ≤ x.expo := by
    by_contra hc
    have hc : max x.expo 1 - 1 ≤ 1021 := by omega
    have h3 : x.mag < 2 ^ 53 * 2 ^ 1021 := by
      unfold F64.mag
      calc _ ≤ (if x.expo = 0 then x.frac else 2 ^ 52 + x.frac) * 2 ^ 1021 :=
            Nat.mul_le_mul_left _ (Nat.pow_le_pow_right (by decide) hc)
        _ < 2 ^ 53 * 2 ^ 1021 := by
            apply Nat.mul_lt_mul_of_pos_right _ (Nat.pow_pos (by decide))
            split <;> omega
    have h4 : (2 ^ 53 * 2 ^ 1021 : ℕ) = 2 ^ 1074 := by rw [← Nat.pow_add]
    omega
  refine ⟨(2 ^ 52 + x.frac) * 2 ^ (x.expo - 1023), ?_⟩
  rw [e1]
  have e2 : x.mag = (2 ^ 52 + x.frac) * 2 ^ (x.expo - 1023) * 2 ^ 1022 := by
    unfold F64.mag
    rw [if_neg (by omega), Nat.mul_assoc, ← Nat.pow_add]
    congr 2
    omega
  rw [e2, div_eq_div_iff hU.ne' (by positivity)]
  push_cast
  ring

/-- No double is within 6e-17 of a right angle. -/
theorem right_angle_gap {x : F64} (h : 1 ≤ |ofDouble x|) : 6e-17 ≤ |(|ofDouble x| - Real.pi / 2)| := by
  obtain ⟨k, hk⟩ := multiple_of_ulp h
  rw [hk]
  have h1 := Real.pi_gt_d20
  have h2 := Real.pi_lt_d20
  rcases Nat.lt_or_ge k 7074237752028441 with hc | hc
  · have : (k : ℝ) ≤ 7074237752028440 := by exact_mod_cast Nat.le_of_lt_succ hc
    rw [abs_sub_comm]
    refine le_trans ?_ (le_abs_self _)
    norm_num at h1 h2 ⊢
    linarith
  · have : (7074237752028441 : ℝ) ≤ k := by exact_mod_cast hc
    refine le_trans ?_ (le_abs_self _)
    norm_num at h1 h2 ⊢
    linarith

theorem arctan_big {t : ℝ} (h : 1e18 ≤ |t|) : |(|Real.arctan t| - Real.pi / 2)| ≤ 1e-18 := by
  have key : ∀ t : ℝ, 1e18 ≤ t → |Real.arctan t - Real.pi / 2| ≤ 1e-18 := by
    intro t ht
    have t0 : 0 < t := lt_of_lt_of_le (by norm_num) ht
    have h1 := Real.arctan_inv_of_pos t0
    have h2 : |Real.arctan t⁻¹| ≤ t⁻¹ := by
      have := arctan_lip t⁻¹ 0
      rw [Real.arctan_zero, sub_zero, sub_zero, abs_of_pos (inv_pos.2 t0)] at this
      exact this
    have h3 : t⁻¹ ≤ 1e-18 := by
      rw [inv_le_comm₀ t0 (by norm_num)]
      norm_num at ht ⊢
      exact ht
    rw [show Real.arctan t - Real.pi / 2 = -Real.arctan t⁻¹ by rw [h1]; ring, abs_neg]
    exact h2.trans h3
  rcases le_total 0 t with ht | ht
  · rw [abs_of_nonneg (show 0 ≤ Real.arctan t by rw [← Real.arctan_zero]; exact Real.arctan_strictMono.monotone ht)]
    rw [abs_of_nonneg ht] at h
    exact key t h
  · rw [abs_of_nonpos (show Real.arctan t ≤ 0 by rw [← Real.arctan_zero]; exact Real.arctan_strictMono.monotone ht), ← Real.arctan_neg]
    rw [abs_of_nonpos ht] at h
    exact key (-t) h

/-- The cosine of a double close to a right angle. -/
theorem cos_gap {x : F64} (h : |(|ofDouble x| - Real.pi / 2)| ≤ 4e-16) : 3.8e-17 ≤ |Real.cos (ofDouble x)| := by
  have hpi := Real.pi_gt_d4
  have hpi' := Real.pi_lt_d4
  have hb := abs_le.1 h
  have h1 : 1 ≤ |ofDouble x| := by norm_num at hb hpi ⊢; linarith
  have h2 := right_angle_gap h1
  rw [← Real.cos_abs, show |ofDouble x| = Real.pi / 2 - (Real.pi / 2 - |ofDouble x|) by ring, Real.cos_pi_div_two_sub,
    Real.abs_sin_eq_sin_abs_of_abs_le_pi (by
      rw [abs_sub_comm]; norm_num at h hpi ⊢; linarith), abs_sub_comm]
  have h3 := Real.mul_le_sin (abs_nonneg (|ofDouble x| - Real.pi / 2)) (by norm_num at h hpi ⊢; linarith)
  refine le_trans ?_ h3
  have h4 : (0.636 : ℝ) ≤ 2 / Real.pi := by
    rw [le_div_iff₀ Real.pi_pos]; norm_num at hpi' ⊢; linarith
  calc (3.8e-17 : ℝ) ≤ 0.636 * 6e-17 := by norm_num
    _ ≤ _ := by gcongr

/-! ## The distance from the axis -/

theorem p_rel {P : Dbl.Platform} (h1 : P.SquareOk) (h2 : P.SquareReturns) {x y : F64} (hx : x.Finite) (hy : y.Finite)
    (hr : 1e-150 ≤ Real.sqrt (ofDouble x ^ 2 + ofDouble y ^ 2)) (hu : Real.sqrt (ofDouble x ^ 2 + ofDouble y ^ 2) ≤ 1) :
    ∃ p, (do let x2 ← P.square x; let y2 ← P.square y; F64.sqrt (F64.add x2 y2) : Except PyErr F64) = .ok p ∧
      p.Finite ∧ 0.9 * Real.sqrt (ofDouble x ^ 2 + ofDouble y ^ 2) ≤ ofDouble p ∧
      ofDouble p ≤ 1.1 * Real.sqrt (ofDouble x ^ 2 + ofDouble y ^ 2) := by
  have big : (1 : ℝ) ≤ 2 ^ 500 := by norm_num
  have bx : |ofDouble x| ≤ 1 := (Real.abs_le_sqrt (by nlinarith [sq_nonneg (ofDouble y)])).trans hu
  have by' : |ofDouble y| ≤ 1 := (Real.abs_le_sqrt (by nlinarith [sq_nonneg (ofDouble x)])).trans hu
  obtain ⟨sx, e1, f1⟩ := h2 x hx (bx.trans big)
  obtain ⟨sy, e2, f2⟩ := h2 y hy (by'.trans big)
  have g1 := h1 x sx hx e1 f1
  have g2 := h1 y sy hy e2 f2
  have px := sq_nonneg (ofDouble x)
  have py := sq_nonneg (ofDouble y)
  have hS0 : 0 ≤ ofDouble x ^ 2 + ofDouble y ^ 2 := by positivity
  have hrr := Real.mul_self_sqrt hS0
  set r := Real.sqrt (ofDouble x ^ 2 + ofDouble y ^ 2) with hrdef
  have r0 : 0 < r := lt_of_lt_of_le (by norm_num) hr
  have rr : 1e-300 ≤ r * r := by
    calc (1e-300 : ℝ) = 1e-150 * 1e-150 := by norm_num
      _ ≤ r * r := by gcongr
  have ru : r * r ≤ 1 := by nlinarith
  have tn : (1 : ℝ) / 2 ^ 1074 ≤ 0.001 * (r * r) := by
    refine le_trans ?_ (mul_le_mul_of_nonneg_left rr (by norm_num))
    norm_num
  have A : Ap (F64.add sx sy) (ofDouble x ^ 2 + ofDouble y ^ 2) (0.01 * (r * r)) := by
    have fin : (F64.add sx sy).Finite := by
      refine add_finite_of f1 f2 ?_
      have k1 := abs_le.1 g1
      have k2 := abs_le.1 g2
      rw [abs_le]
      have : (100 : ℝ) ≤ 2 ^ 1000 := by norm_num
      generalize (1 : ℝ) / 2 ^ 1074 = η at *
      generalize (2 : ℝ) ^ 1000 = B at *
      norm_num at k1 k2 ⊢
      constructor <;> linarith only [k1.1, k1.2, k2.1, k2.2, px, py, this, hrr, ru, tn]
    refine ⟨fin, (add_near fin g1 g2).trans ?_⟩
    rw [abs_of_nonneg hS0]
    generalize (1 : ℝ) / 2 ^ 1074 = η at *
    norm_num
    linarith only [hrr, tn, px, py]
  obtain ⟨p, e3, e4⟩ := A.sqrt (q := 0.9 * r) (S := r) (g := 0.1 * r) (by positivity)
    (by rw [← hrr]; nlinarith) le_rfl (by
      rw [show 0.01 * (r * r) / (2 * (0.9 * r)) = 0.01 / 1.8 * r by field_simp; norm_num]
      norm_num
      linarith)
  have k := abs_le.1 e4.2
  refine ⟨p, by rw [e1, bind_ok, e2, bind_ok]; exact e3, e4.1, ?_, ?_⟩
  · norm_num at k ⊢; linarith
  · norm_num at k ⊢; linarith

/-! ## Two rounds -/

/-- The first round close to the axis: the altitude is the wrong one. -/
theorem axis_first {L : Dbl.Libm} (h1 : L.SquareOk) (h2 : L.SquareReturns) (h3 : L.TrigOk) (h4 : L.ArcOk) {ph zh : F64}
    (pf : ph.Finite) (pl : 1e-151 ≤ ofDouble ph) (pu : ofDouble ph ≤ 1.1e-12)
    (zf : zh.Finite) (zl : 6.2e6 ≤ |ofDouble zh|) (zu : |ofDouble zh| ≤ 6.5e6) :
    ∃ s' r, Dbl.ecef2lla_body L ph zh Dbl.ecef2lla_init = .ok s' ∧ s'.previousLat = Dbl.num 0 ∧
      s'.lat.Finite ∧ 1.5 ≤ |ofDouble s'.lat| ∧ |ofDouble s'.lat| ≤ 2 ∧ s'.N.Finite ∧
      6.37e6 ≤ ofDouble s'.N ∧ ofDouble s'.N ≤ 6.42e6 ∧
      s'.alt = F64.sub r s'.N ∧ r.Finite ∧ |ofDouble r| ≤ 31000 := by
  have ha : a = 6378137 := by unfold a; norm_num
  have p0 : 0 < ofDouble ph := lt_of_lt_of_le (by norm_num) pl
  have hz := Ap.self zf
  have hN : Ap Dbl.ecef2lla_init.N a 0 := by rw [init_N]; exact Ap.a
  have hA : Ap Dbl.ecef2lla_init.alt 0 0 := by
    rw [init_alt]
    have := Ap.num (n := 0) (by decide)
    rw [Nat.cast_zero] at this
    exact this
  generalize ofDouble zh = z at *
  have hE := e_sq_lt
  have hE0 := e_sq_gt
  have hD0 : 0 < a * (1 - e ^ 2) := mul_pos a_pos (by linarith)
  have bD : 6.33e6 ≤ a * (1 - e ^ 2) ∧ a * (1 - e ^ 2) ≤ 6.34e6 := by
    rw [ha]; norm_num at hE hE0 ⊢; constructor <;> linarith
  have bs : |z / (a * (1 - e ^ 2))| ≤ 1.05 := by
    rw [abs_div, abs_of_pos hD0, div_le_iff₀ hD0]
    norm_num at bD zu ⊢
    linarith
  have be : |e| ≤ 0.0819 := by rw [abs_of_nonneg e_nonneg]; exact e_lt.le
  have bN' : |a| ≤ 6.42e6 := by rw [ha]; norm_num [abs_le]
  obtain ⟨e2, f1, f2⟩ := Ap.e.square h1 h2 be (g := 1.7e-16) (by norm_num) (by norm_num)
  have q0' := sq_nonneg WGS84.e
  have be2 : |e ^ 2| ≤ 0.0066944 := by rw [abs_of_nonneg q0']; exact hE.le
  have bq : |1 - e ^ 2| ≤ 1 := by rw [abs_le]; constructor <;> linarith only [hE, q0']
  have q1 : Ap (F64.sub (Dbl.num 1) e2) ((1 : ℕ) - e ^ 2) 2.85e-16 := by
    refine (Ap.num (n := 1) (by decide)).sub f2 (S := 1) ?_ ?_ ?_
    · rw [Nat.cast_one]; exact bq
    · norm_num
    · norm_num
  rw [Nat.cast_one] at q1
  have q2 : Ap (F64.mul Dbl.ecef2lla_init.N (F64.sub (Dbl.num 1) e2)) (a * (1 - e ^ 2)) 2.6e-9 :=
    hN.mul q1 bN' bq (by norm_num) (by norm_num)
  have q3 : Ap (F64.add (F64.mul Dbl.ecef2lla_init.N (F64.sub (Dbl.num 1) e2)) Dbl.ecef2lla_init.alt)
      (a * (1 - e ^ 2) + 0) 3.4e-9 := by
    refine q2.add hA (S := 6.6e6) ?_ (by norm_num) (by norm_num)
    rw [add_zero, abs_of_pos hD0]
    exact bD.2.trans (by norm_num)
  rw [add_zero] at q3
  obtain ⟨s1, s1'⟩ := hz.div q3 bs (B := 6.2e6) (g := 7e-16) (by rw [abs_of_pos hD0]; exact le_trans (by norm_num) bD.1)
    (by norm_num) (by norm_num) (by norm_num)
  have m1 : Ap (F64.mul e2 Dbl.ecef2lla_init.N) (e ^ 2 * a) 1.11e-9 := f2.mul hN be2 bN' (by norm_num) (by norm_num)
  have bm1 : |e ^ 2 * a| ≤ 43000 := by
    rw [abs_mul]
    calc |e ^ 2| * |a| ≤ 0.0066944 * 6.42e6 := by gcongr
      _ ≤ 43000 := by norm_num
  obtain ⟨sl, e3⟩ : ∃ sl, F64.div zh (F64.add (F64.mul Dbl.ecef2lla_init.N (F64.sub (Dbl.num 1) e2))
    Dbl.ecef2lla_init.alt) = sl := ⟨_, rfl⟩
  rw [e3] at s1
  have m2 : Ap (F64.mul (F64.mul e2 Dbl.ecef2lla_init.N) sl)
      (e ^ 2 * a * (z / (a * (1 - e ^ 2)))) 1.21e-9 := m1.mul s1 bm1 bs (by norm_num) (by norm_num)
  have bm2 : |e ^ 2 * a * (z / (a * (1 - e ^ 2)))| ≤ 45150 := by
    rw [abs_mul]
    calc |e ^ 2 * a| * |z / (a * (1 - e ^ 2))| ≤ 43000 * 1.05 := by gcongr
      _ ≤ 45150 := by norm_num
  have bW : |W z a (a * (1 - e ^ 2))| ≤ 6.6e6 := by
    unfold W
    refine (abs_add_le _ _).trans ((add_le_add zu bm2).trans ?_)
    norm_num
  have lW : 6.2e6 ≤ |W z a (a * (1 - e ^ 2))| := zl.trans (W_ge (z := z) a_pos.le hD0)
  have m3 := hz.add m2 (S := 6.6e6) (g := 1.96e-9) bW (by norm_num) (by norm_num)
  change Ap _ (W z a (a * (1 - e ^ 2))) _ at m3
  obtain ⟨w, e4⟩ : ∃ w, F64.add zh (F64.mul (F64.mul e2 Dbl.ecef2lla_init.N) sl) = w := ⟨_, rfl⟩
  rw [e4] at m3
  have w1 : 6.1e6 ≤ |ofDouble w| := by
    have k1 := abs_sub_abs_le_abs_sub (W z a (a * (1 - e ^ 2))) (ofDouble w)
    have k2 := m3.2
    rw [abs_sub_comm] at k2
    norm_num at lW k2 ⊢
    linarith
  have w2 : |ofDouble w| ≤ 6.7e6 := (m3.le bW).trans (by norm_num)
  -- the tangent
  have t0 : |ofDouble w / ofDouble ph| ≤ 6.7e6 / 1e-151 := by
    rw [abs_div, abs_of_pos p0]
    exact div_le_div₀ (by norm_num) w2 (by norm_num) pl
  have tf : (F64.div w ph).Finite := div_finite_of m3.1 pf p0.ne' (t0.trans (by norm_num))
  have t1 := val_div' tf pf
  have t2 : 5e18 ≤ |ofDouble w / ofDouble ph| := by
    rw [abs_div, abs_of_pos p0, le_div_iff₀ p0]
    refine le_trans ?_ w1
    calc 5e18 * ofDouble ph ≤ 5e18 * 1.1e-12 := by gcongr
      _ ≤ 6.1e6 := by norm_num
  have t3 : 1e18 ≤ |ofDouble (F64.div w ph)| := by
    have k1 := abs_sub_abs_le_abs_sub (ofDouble w / ofDouble ph) (ofDouble (F64.div w ph))
    rw [abs_sub_comm] at k1
    have k2 := eta_le
    norm_num at k2 t1 t2 ⊢
    linarith
  have t4 := arctan_big t3
  have l1 := Ap.atan h4 (g := 3.5e-16) tf (θ := Real.arctan (ofDouble (F64.div w ph))) (δ := 0) (by simp) (by norm_num)
  have l2 : |(|ofDouble (L.atan (F64.div w ph))| - Real.pi / 2)| ≤ 4e-16 := by
    have k1 := abs_abs_sub_abs_le (ofDouble (L.atan (F64.div w ph))) (Real.arctan (ofDouble (F64.div w ph)))
    have k2 := l1.2
    refine (abs_sub_tri _ |Real.arctan (ofDouble (F64.div w ph))| _).trans ?_
    norm_num at k2 t4 ⊢
    linarith
  have hpi := Real.pi_gt_d4
  have hpi' := Real.pi_lt_d4
  have l3 := abs_le.1 l2
  have c0 := cos_gap l2
  -- the normal
  have v1 : Ap (F64.mul Dbl.WGS84.e sl) (e * (z / (a * (1 - e ^ 2)))) 1.2e-15 :=
    Ap.e.mul s1 be bs (by norm_num) (by norm_num)
  have bv : |e * (z / (a * (1 - e ^ 2)))| ≤ 0.09 := by
    rw [abs_mul]
    calc |e| * |z / (a * (1 - e ^ 2))| ≤ 0.0819 * 1.05 := by gcongr
      _ ≤ 0.09 := by norm_num
  obtain ⟨N', n1, n2⟩ := v1.normal_wide h1 h2 bv
  change Ap N' (SN z (a * (1 - e ^ 2))) _ at n2
  have bSN := SN_bounds (bs.trans (by norm_num))
  rw [ha] at bSN
  have n3 := abs_le.1 n2.2
  rw [ha] at n3
  -- the altitude
  obtain ⟨c1, c2⟩ := (Ap.self l1.1).cos h3 (g := 2.3e-16) (by norm_num)
  obtain ⟨cf, c3⟩ := h3.cos _ l1.1
  have c4 : 3.7e-17 ≤ |ofDouble (L.cos (L.atan (F64.div w ph)))| := by
    have k1 := abs_sub_abs_le_abs_sub (Real.cos (ofDouble (L.atan (F64.div w ph)))) (ofDouble (L.cos (L.atan (F64.div w ph))))
    rw [abs_sub_comm] at k1
    have k2 := tiny
    norm_num at k2 c3 c0 ⊢
    linarith
  have c5 : ofDouble (L.cos (L.atan (F64.div w ph))) ≠ 0 := by
    intro h
    rw [h, abs_zero] at c4
    norm_num at c4
  have r0 : |ofDouble ph / ofDouble (L.cos (L.atan (F64.div w ph)))| ≤ 30000 := by
    rw [abs_div, abs_of_pos p0]
    refine (div_le_div₀ (by norm_num) pu (by norm_num) c4).trans ?_
    norm_num
  have rf : (F64.div ph (L.cos (L.atan (F64.div w ph)))).Finite := div_finite_of pf cf c5 (r0.trans (by norm_num))
  have r1 := val_div' rf cf
  refine ⟨⟨L.atan (F64.div w ph), Dbl.num 0, N', F64.sub (F64.div ph (L.cos (L.atan (F64.div w ph)))) N'⟩,
    F64.div ph (L.cos (L.atan (F64.div w ph))), ?_, rfl, l1.1, ?_, ?_, n2.1, ?_, ?_, rfl, rf, ?_⟩
  · unfold Dbl.ecef2lla_body
    dsimp only
    rw [f1, bind_ok, pyDiv_ok s1', bind_ok, bind_ok, e3, e4, pyDiv_ok p0.ne', bind_ok, n1, bind_ok, c1, bind_ok,
      pyDiv_ok c5, bind_ok, show Dbl.ecef2lla_init.lat = Dbl.num 0 by delta Dbl.ecef2lla_init; with_reducible rfl]
    rfl
  · norm_num at l3 hpi ⊢
    linarith
  · norm_num at l3 hpi' ⊢
    linarith
  · norm_num at n3 bSN ⊢
    linarith
  · norm_num at n3 bSN ⊢
    linarith
  · have k1 := abs_sub_tri (ofDouble (F64.div ph (L.cos (L.atan (F64.div w ph)))))
      (ofDouble ph / ofDouble (L.cos (L.atan (F64.div w ph)))) 0
    rw [sub_zero, sub_zero] at k1
    have k2 := eta_le
    norm_num at k2 r1 ⊢
    linarith

/-- The second round raises. -/
theorem axis_second {L : Dbl.Libm} (h1 : L.SquareOk) (h2 : L.SquareReturns) {ph zh r : F64} {s : Dbl.LoopState}
    (p0 : ofDouble ph ≠ 0) (zf : zh.Finite) (zl : 6.2e6 ≤ |ofDouble zh|) (zu : |ofDouble zh| ≤ 6.5e6)
    (nf : s.N.Finite) (nl : 6.37e6 ≤ ofDouble s.N) (nu : ofDouble s.N ≤ 6.42e6)
    (ea : s.alt = F64.sub r s.N) (rf : r.Finite) (ru : |ofDouble r| ≤ 31000) :
    Dbl.ecef2lla_body L ph zh s = .error .valueError := by
  have hE := e_sq_lt
  have hE0 := e_sq_gt
  have hN := Ap.self nf
  have hr := Ap.self rf
  have hz := Ap.self zf
  generalize ofDouble s.N = N at *
  generalize ofDouble r = ρ at *
  generalize ofDouble zh = z at *
  have be : |e| ≤ 0.0819 := by rw [abs_of_nonneg e_nonneg]; exact e_lt.le
  have bN' : |N| ≤ 6.42e6 := by
    rw [abs_of_nonneg (le_trans (by norm_num) nl)]; exact nu
  obtain ⟨e2, f1, f2⟩ := Ap.e.square h1 h2 be (g := 1.7e-16) (by norm_num) (by norm_num)
  have q0' := sq_nonneg WGS84.e
  have bq : |1 - e ^ 2| ≤ 1 := by rw [abs_le]; constructor <;> linarith only [hE, q0']
  have q1 : Ap (F64.sub (Dbl.num 1) e2) ((1 : ℕ) - e ^ 2) 2.85e-16 := by
    refine (Ap.num (n := 1) (by decide)).sub f2 (S := 1) ?_ ?_ ?_
    · rw [Nat.cast_one]; exact bq
    · norm_num
    · norm_num
  rw [Nat.cast_one] at q1
  have q2 : Ap (F64.mul s.N (F64.sub (Dbl.num 1) e2)) (N * (1 - e ^ 2)) 2.6e-9 :=
    hN.mul q1 bN' bq (by norm_num) (by norm_num)
  have bρ := abs_le.1 ru
  have a1 : Ap s.alt (ρ - N) 1e-8 := by
    rw [ea]
    refine hr.sub hN (S := 7e6) ?_ (by norm_num) (by norm_num)
    rw [abs_le]
    norm_num at nl nu ⊢
    constructor <;> linarith
  have eD : N * (1 - e ^ 2) + (ρ - N) = ρ - e ^ 2 * N := by ring
  have k1 : 42600 ≤ e ^ 2 * N := by
    calc (42600 : ℝ) ≤ 0.00669 * 6.37e6 := by norm_num
      _ ≤ e ^ 2 * N := mul_le_mul (le_trans (by norm_num) hE0.le) nl (by norm_num) q0'
  have k2 : e ^ 2 * N ≤ 43000 := by
    calc e ^ 2 * N ≤ 0.0066944 * 6.42e6 := by gcongr
      _ ≤ 43000 := by norm_num
  have q3 : Ap (F64.add (F64.mul s.N (F64.sub (Dbl.num 1) e2)) s.alt) (ρ - e ^ 2 * N) 1e-7 := by
    rw [← eD]
    refine q2.add a1 (S := 75000) ?_ (by norm_num) (by norm_num)
    rw [eD, abs_le]
    constructor <;> linarith
  have hD1 : ρ - e ^ 2 * N < 0 := by linarith
  have bD : 10000 ≤ |ρ - e ^ 2 * N| ∧ |ρ - e ^ 2 * N| ≤ 75000 := by
    rw [abs_of_neg hD1]
    constructor <;> linarith
  have hD0 : 0 < |ρ - e ^ 2 * N| := by linarith
  have bs : |z / (ρ - e ^ 2 * N)| ≤ 650 := by
    rw [abs_div, div_le_iff₀ hD0]
    norm_num at zu ⊢
    linarith
  have ls : 80 ≤ |z / (ρ - e ^ 2 * N)| := by
    rw [abs_div, le_div_iff₀ hD0]
    norm_num at zl ⊢
    linarith
  obtain ⟨s1, s1'⟩ := hz.div q3 bs (B := 10000) (g := 1e-6) bD.1 (by norm_num) (by norm_num) (by norm_num)
  obtain ⟨sl, e3⟩ : ∃ sl, F64.div zh (F64.add (F64.mul s.N (F64.sub (Dbl.num 1) e2)) s.alt) = sl := ⟨_, rfl⟩
  rw [e3] at s1
  have v1 : Ap (F64.mul Dbl.WGS84.e sl) (e * (z / (ρ - e ^ 2 * N))) 1e-6 :=
    Ap.e.mul s1 be bs (by norm_num) (by norm_num)
  have bv : |e * (z / (ρ - e ^ 2 * N))| ≤ 60 := by
    rw [abs_mul]
    calc |e| * |z / (ρ - e ^ 2 * N)| ≤ 0.0819 * 650 := by gcongr
      _ ≤ 60 := by norm_num
  have lv : 6 ≤ |e * (z / (ρ - e ^ 2 * N))| := by
    rw [abs_mul, abs_of_nonneg e_nonneg]
    have := e_gt
    calc (6 : ℝ) ≤ 0.08 * 80 := by norm_num
      _ ≤ e * |z / (ρ - e ^ 2 * N)| := by
        apply mul_le_mul _ ls (by norm_num) e_nonneg
        norm_num at this ⊢
        linarith
  obtain ⟨sq, g1, g2⟩ := v1.square h1 h2 bv (g := 1) (by norm_num) (by norm_num)
  have lq : 36 ≤ (e * (z / (ρ - e ^ 2 * N))) ^ 2 := by
    rw [← sq_abs]
    calc (36 : ℝ) = 6 ^ 2 := by norm_num
      _ ≤ _ := by gcongr
  have uq : (e * (z / (ρ - e ^ 2 * N))) ^ 2 ≤ 3600 := by
    rw [← sq_abs]
    calc _ ≤ (60 : ℝ) ^ 2 := by gcongr
      _ = 3600 := by norm_num
  have d1 : Ap (F64.sub (Dbl.num 1) sq) ((1 : ℕ) - (e * (z / (ρ - e ^ 2 * N))) ^ 2) 2 := by
    refine (Ap.num (n := 1) (by decide)).sub g2 (S := 4000) ?_ ?_ ?_
    · rw [Nat.cast_one, abs_le]; constructor <;> linarith
    · norm_num
    · norm_num
  have d2 : F64.sqrt (F64.sub (Dbl.num 1) sq) = .error .valueError := by
    refine sqrt_neg d1.1 ?_
    have := (abs_le.1 d1.2).2
    rw [Nat.cast_one] at this
    linarith
  have nrm : Dbl.normal L.toPlatform (F64.mul Dbl.WGS84.e sl) = .error .valueError := by
    unfold Dbl.normal
    rw [g1, bind_ok, d2]
    rfl
  unfold Dbl.ecef2lla_body
  dsimp only
  rw [f1, bind_ok, pyDiv_ok s1', bind_ok, bind_ok, e3, pyDiv_ok p0, bind_ok, nrm]
  rfl

/-- Close to the axis and near the ellipsoid the call raises. -/
theorem axis_raises {L : Dbl.Libm} (h1 : L.SquareOk) (h2 : L.SquareReturns) (h3 : L.TrigOk) (h4 : L.ArcOk) {pos : Dbl.Vec}
    {tol : F64} (hf : ∀ i, (pos i).Finite)
    (pl : 1e-150 ≤ Real.sqrt (ofDouble (pos 0) ^ 2 + ofDouble (pos 1) ^ 2))
    (pu : Real.sqrt (ofDouble (pos 0) ^ 2 + ofDouble (pos 1) ^ 2) ≤ 1e-12)
    (zl : 6.2e6 ≤ |ofDouble (pos 2)|) (zu : |ofDouble (pos 2)| ≤ 6.5e6) (tf : tol.Finite) (tu : ofDouble tol ≤ 1) :
    Dbl.ecef2lla L pos tol = some (.error .valueError) := by
  obtain ⟨p, ep, pf, p1, p2⟩ := p_rel h1 h2 (hf 0) (hf 1) pl (pu.trans (by norm_num))
  have pl' : 1e-151 ≤ ofDouble p := by
    refine le_trans ?_ p1
    calc (1e-151 : ℝ) ≤ 0.9 * 1e-150 := by norm_num
      _ ≤ _ := by gcongr
  have pu' : ofDouble p ≤ 1.1e-12 := by
    refine p2.trans ((mul_le_mul_of_nonneg_left pu (by norm_num)).trans ?_)
    norm_num
  have p0 : ofDouble p ≠ 0 := (lt_of_lt_of_le (by norm_num) pl').ne'
  obtain ⟨s, r, b1, b2, b3, b4, b4', b5, b6, b7, b8, b9, b10⟩ := axis_first h1 h2 h3 h4 pf pl' pu' (hf 2) zl zu
  have c := axis_second h1 h2 p0 (hf 2) zl zu b5 b6 b7 b8 b9 b10
  have a1 : Dbl.ecef2lla_after L p (pos 2) 1 = .ok s := by
    rw [after_succ (s := Dbl.ecef2lla_init) (by rw [Dbl.ecef2lla_after])]
    exact b1
  have a2 : Dbl.ecef2lla_after L p (pos 2) 2 = .error .valueError := by
    rw [after_succ a1]
    exact c
  have l2 : Dbl.ecef2lla_leaves L p (pos 2) tol 2 := by
    unfold Dbl.ecef2lla_leaves
    rw [a2]
    trivial
  have l1 : ¬ Dbl.ecef2lla_leaves L p (pos 2) tol 1 := by
    unfold Dbl.ecef2lla_leaves
    rw [a1]
    simp only [b2]
    have c0 : Ap (Dbl.num 0) 0 0 := by
      have := Ap.num (n := 0) (by decide)
      rw [Nat.cast_zero] at this
      exact this
    have k := lat_change (Ap.self b3) c0 (by rw [sub_zero]; exact b4'.trans (by norm_num)) (by norm_num)
    rw [le_false_iff tf k.1, not_lt]
    have := (abs_le.1 k.2).1
    rw [sub_zero] at this
    norm_num at this b4 ⊢
    linarith
  have l0 := entered64 (L := L) (ph := p) (zh := pos 2) tf (tu.trans (by norm_num))
  have hex : ∃ n, Dbl.ecef2lla_leaves L p (pos 2) tol n := ⟨2, l2⟩
  classical
  have hfind : Nat.find hex = 2 := by
    rw [Nat.find_eq_iff]
    refine ⟨l2, fun n hn => ?_⟩
    interval_cases n
    · exact l0
    · exact l1
  have hloop : Dbl.ecef2lla_loop L p (pos 2) tol = some (.error .valueError) := by
    unfold Dbl.ecef2lla_loop
    rw [dif_pos hex, hfind, a2]
  have hne : ¬ ((pos 0).mag = 0 ∧ (pos 1).mag = 0) := by
    rintro ⟨m0, m1⟩
    rw [val_zero_of_mag m0, val_zero_of_mag m1] at pl
    norm_num at pl
  unfold Dbl.ecef2lla
  dsimp only
  rw [ep]
  dsimp only
  rw [if_neg hne, hloop]

end Dis.Geo
