import Verif.Proof.Lla64
import Verif.Proof.OfInt
import Verif.Proof.ReferenceLibm
import Verif.Proof.UtmSeries64
import Verif.Proof.Zone64

/-!
# Errors of UTM coordinates in floating point
-/

set_option exponentiation.threshold 4096

namespace Dis.Geo

theorem deg2rad_le {v D R : ℝ} (h : |v| ≤ D) (hR : D * 3.1416 / 180 ≤ R) : |deg2rad v| ≤ R := by
  have p1 := Real.pi_lt_d4
  have p0 := Real.pi_pos
  have := abs_nonneg v
  unfold deg2rad
  rw [abs_div, abs_mul, abs_of_pos p0, abs_of_pos (show (0 : ℝ) < 180 by norm_num)]
  refine le_trans ?_ hR
  have : |v| * Real.pi ≤ D * 3.1416 := mul_le_mul h p1.le p0.le (by linarith)
  linarith

theorem cos_84 {v : ℝ} (h : |v| ≤ 84) : 0.1044 ≤ Real.cos (deg2rad v) := by
  have p0 := Real.pi_gt_d4
  have h1 : |deg2rad v| ≤ Real.pi / 2 - 0.1047 := by
    unfold deg2rad
    rw [abs_div, abs_mul, abs_of_pos Real.pi_pos, abs_of_pos (show (0 : ℝ) < 180 by norm_num)]
    have : |v| * Real.pi ≤ 84 * Real.pi := by gcongr
    linarith
  have h2 : Real.cos (Real.pi / 2 - 0.1047) ≤ Real.cos |deg2rad v| :=
    Real.cos_le_cos_of_nonneg_of_le_pi (abs_nonneg _) (by linarith) h1
  rw [Real.cos_abs, Real.cos_pi_div_two_sub] at h2
  have h3 := Real.sin_gt_sub_cube (x := 0.1047) (by norm_num)
  norm_num at *
  linarith

theorem Bd.eSquared {L : Dbl.CMath} (hL : L.Accurate) :
    ∃ E, L.square Dbl.WGS84.e = .ok E ∧ Bd E (WGS84.e ^ 2) 0.0067 1.7e-16 := by
  obtain ⟨E, h1, h2⟩ := Ap.e.square hL.square hL.squareReturns (A := 0.0819) (g := 1.7e-16)
    (by rw [abs_of_nonneg e_nonneg]; exact e_lt.le) (by norm_num) (by norm_num)
  refine ⟨E, h1, h2, ?_⟩
  rw [abs_of_nonneg (sq_nonneg _)]
  have := e_sq_lt
  norm_num at *
  linarith

theorem Bd.ePrime {E : F64} (hE : Bd E (WGS84.e ^ 2) 0.0067 1.7e-16) :
    ∃ y, F64.pyDiv E (F64.sub (Dbl.num 1) E) = .ok y ∧ Bd y (WGS84.e ^ 2 / (1 - WGS84.e ^ 2)) 0.00675 1.739e-16 := by
  have h1 := e_sq_lt
  have h2 := e_sq_gt
  generalize WGS84.e ^ 2 = w at *
  have hd := (Bd.num 1 (r := 1) (by norm_num) (by norm_num)).sub_of hE (S := 1) (g := 2.811e-16)
    (by rw [abs_of_nonneg] <;> norm_num at * <;> linarith) (by norm_num) (by norm_num)
  have w0 : 0.9933 ≤ 1 - w := by norm_num at *; linarith
  have hq : |w / (1 - w)| ≤ 0.00675 := by
    rw [abs_of_nonneg (div_nonneg (by norm_num at h2; linarith) (by norm_num at w0; linarith)),
      div_le_iff₀ (by norm_num at w0; linarith)]
    norm_num at *; linarith
  obtain ⟨h3, h4⟩ := hE.1.div hd.1 (Q := 0.00675) (B := 0.9933) (g := 1.739e-16) hq (w0.trans (le_abs_self _)) (by norm_num)
    (by norm_num) (by norm_num)
  exact ⟨_, pyDiv_ok h4, h3, hq⟩

theorem Bd.radius {E s2 : F64} {w s' : ℝ} (hE : Bd E w 0.0067 1.7e-16) (hs : Bd s2 s' 1 1.457e-15) (h0 : 0 ≤ s')
    (w0 : 0 ≤ w) (w1 : w < 0.0066944) :
    ∃ r N, F64.sqrt (F64.sub (Dbl.num 1) (F64.mul E s2)) = .ok r ∧ F64.pyDiv Dbl.WGS84.a r = .ok N ∧
      Bd N (WGS84.a / Real.sqrt (1 - w * s')) 6400000 2.364e-9 := by
  have s1 : s' ≤ 1 := (le_abs_self _).trans hs.2
  have m0 : 0 ≤ w * s' := mul_nonneg w0 h0
  have m1 : w * s' ≤ 0.0066944 := by
    calc w * s' ≤ 0.0066944 * 1 := mul_le_mul w1.le s1 h0 (by norm_num)
      _ = 0.0066944 := by norm_num
  have hm := hE.mul hs (C := 0.0067) (g := 1.806e-16) (by norm_num) (by norm_num) (by norm_num)
  have hd := (Bd.num 1 (r := 1) (by norm_num) (by norm_num)).sub_of hm (S := 1) (g := 2.917e-16)
    (by rw [abs_of_nonneg] <;> norm_num at m1 ⊢ <;> linarith) (by norm_num) (by norm_num)
  have r1 : 0.9966 ≤ Real.sqrt (1 - w * s') := Real.le_sqrt_of_sq_le (by norm_num at m1 ⊢; linarith)
  have r2 : Real.sqrt (1 - w * s') ≤ 1 := Real.sqrt_le_one.2 (by linarith)
  obtain ⟨r, e1, hr⟩ := hd.1.sqrt (q := 0.9965) (S := 1) (g := 2.574e-16) (by norm_num)
    (by norm_num at m1 ⊢; linarith) r2 (by norm_num)
  have hq : |WGS84.a / Real.sqrt (1 - w * s')| ≤ 6400000 := by
    have : (0 : ℝ) < 0.9966 := by norm_num
    rw [abs_div, abs_of_pos (this.trans_le r1), div_le_iff₀ (this.trans_le r1)]
    refine Bd.a.2.trans ?_
    norm_num at r1 ⊢
    linarith
  obtain ⟨h3, h4⟩ := Ap.a.div hr (Q := 6400000) (B := 0.9965) (g := 2.364e-9) hq
    (le_trans (by norm_num at r1 ⊢; linarith) (le_abs_self _)) (by norm_num) (by norm_num) (by norm_num)
  exact ⟨r, _, e1, pyDiv_ok h4, h3, hq⟩

theorem fromInt_ok {n : ℤ} (h : n.natAbs ≤ 1000) : ∃ x, Dbl.fromInt n = .ok x ∧ Ap x n 0 := by
  obtain ⟨x, k, e1, hf, hk, e2⟩ := F64.ofInt_units (n := n) h
  refine ⟨x, by unfold Dbl.fromInt; rw [e1]; rfl, hf, ?_⟩
  rw [val_units (m := n) k 0 e2 (by omega)]
  simp

/-- The difference of longitude. -/
theorem Bd.dlon {lon lo : F64} {l o : ℝ} (hf : lon.Finite) (h1 : |ofDouble lon| ≤ 180) (hl : |ofDouble lon - l| ≤ 1e-13)
    (ho : Ap lo o 0) (h2 : |o| ≤ 183) (h3 : |l - o| ≤ 6) :
    Bd (F64.sub (Dbl.deg2rad lon) (Dbl.deg2rad lo)) (deg2rad l - deg2rad o) 0.10473 3.465e-15 := by
  have sub (x y : ℝ) : deg2rad x - deg2rad y = deg2rad (x - y) := by unfold deg2rad; ring
  have d1 : Ap (Dbl.deg2rad lon) (deg2rad l) 2.592e-15 := by
    refine (Ap.deg2rad hf h1 (by norm_num)).to (f := 1.7454e-15) ?_ (by norm_num)
    rw [sub]
    exact deg2rad_le hl (by norm_num)
  have d2 : Ap (Dbl.deg2rad lo) (deg2rad o) 8.61e-16 := by
    have := Ap.deg2rad ho.1 (D := 183) (by rw [ho.eq]; exact h2) (by norm_num)
    rw [ho.eq] at this
    exact this.mono (by norm_num)
  have hS : |deg2rad l - deg2rad o| ≤ 0.10473 := by
    rw [sub]
    exact deg2rad_le h3 (by norm_num)
  exact ⟨d1.sub d2 hS (by norm_num) (by norm_num), hS⟩

theorem lla2utm_ok {L : Dbl.CMath} {lla : Dbl.Vec} {z : ℤ} {lo E ep s s2 r N t T c c2 M x y k : F64}
    (hz : Dbl.zoneNumber (lla 0) (lla 1) = .ok z) (o1 : Dbl.fromInt ((z - 1) * 6 - 180 + 3) = .ok lo)
    (o2 : L.square Dbl.WGS84.e = .ok E) (o3 : F64.pyDiv E (F64.sub (Dbl.num 1) E) = .ok ep)
    (o4 : Dbl.trig L.sin (Dbl.deg2rad (lla 0)) = .ok s) (o5 : L.square s = .ok s2)
    (o6 : F64.sqrt (F64.sub (Dbl.num 1) (F64.mul E s2)) = .ok r) (o7 : F64.pyDiv Dbl.WGS84.a r = .ok N)
    (o8 : Dbl.trig L.tan (Dbl.deg2rad (lla 0)) = .ok t) (o9 : L.square t = .ok T)
    (o10 : Dbl.trig L.cos (Dbl.deg2rad (lla 0)) = .ok c) (o11 : L.square c = .ok c2)
    (o12 : Dbl.meridian L E (Dbl.deg2rad (lla 0)) = .ok M)
    (o13 : Dbl.easting L N T (F64.mul ep c2) (F64.mul (F64.sub (Dbl.deg2rad (lla 1)) (Dbl.deg2rad lo)) c) ep = .ok x)
    (o14 : Dbl.northing L M N t T (F64.mul ep c2) (F64.mul (F64.sub (Dbl.deg2rad (lla 1)) (Dbl.deg2rad lo)) c) ep = .ok y)
    (o15 : Dbl.scaleFactor L T (F64.mul ep c2) (F64.mul (F64.sub (Dbl.deg2rad (lla 1)) (Dbl.deg2rad lo)) c) ep = .ok k) :
    Dbl.lla2utm L lla = .ok ⟨![x, y, lla 2], (z, Dbl.utmLetterDesignator (lla 0)), k⟩ := by
  unfold Dbl.lla2utm
  dsimp only
  rw [hz, bind_ok, o1, bind_ok, o2, bind_ok, o3, bind_ok, o4, bind_ok, o5, bind_ok, o6, bind_ok, o7, bind_ok, o8, bind_ok,
    o9, bind_ok, o10, bind_ok, o11, bind_ok, o12, bind_ok, o13, bind_ok, o14, bind_ok, o15, bind_ok]
  rfl

/-- The computation for a zone, given a longitude close to the given one. -/
theorem utm_near {L : Dbl.CMath} (hL : L.Accurate) {lla : Dbl.Vec} {z : ℤ} {l : ℝ} (f0 : (lla 0).Finite) (f1 : (lla 1).Finite)
    (h0 : |ofDouble (lla 0)| ≤ 84) (h1 : |ofDouble (lla 1)| ≤ 180) (hl : |ofDouble (lla 1) - l| ≤ 1e-13)
    (hz : Dbl.zoneNumber (lla 0) (lla 1) = .ok z) (z1 : 0 ≤ z) (z2 : z ≤ 61)
    (hz' : zoneNumber (ofDouble (lla 0)) l = z) (h6 : |l - (6 * (z : ℝ) - 183)| ≤ 6) (alt : ℝ) :
    ∃ U, Dbl.lla2utm L lla = .ok U ∧ U.zone = (lla2utm ![ofDouble (lla 0), l, alt]).zone ∧ U.utm 2 = lla 2 ∧
      Ap (U.utm 0) ((lla2utm ![ofDouble (lla 0), l, alt]).utm 0) 3.8e-8 ∧
      Ap (U.utm 1) ((lla2utm ![ofDouble (lla 0), l, alt]).utm 1) 4.6e-8 ∧
      Ap U.k (lla2utm ![ofDouble (lla 0), l, alt]).k 1.3e-15 := by
  obtain ⟨lo, o1, ho⟩ := fromInt_ok (n := (z - 1) * 6 - 180 + 3) (by omega)
  have hoc : (((z - 1) * 6 - 180 + 3 : ℤ) : ℝ) = 6 * (z : ℝ) - 183 := by push_cast; ring
  have z1' : (0 : ℝ) ≤ z := by exact_mod_cast z1
  have z2' : (z : ℝ) ≤ 61 := by exact_mod_cast z2
  have hd := Bd.dlon f1 h1 hl ho (by rw [hoc, abs_le]; constructor <;> linarith) (by rw [hoc]; exact h6)
  have ht : Bd (Dbl.deg2rad (lla 0)) (deg2rad (ofDouble (lla 0))) 1.4661 3.95e-16 :=
    ⟨(Ap.deg2rad f0 h0 (by norm_num)).mono (by norm_num), deg2rad_le h0 (by norm_num)⟩
  obtain ⟨E, o2, hE⟩ := Bd.eSquared hL
  obtain ⟨ep, o3, hep⟩ := hE.ePrime
  obtain ⟨o4, hs⟩ := ht.sin (g := 6.171e-16) hL.trig (by norm_num)
  obtain ⟨s2, o5, hs2⟩ := hs.square (C := 1) (g := 1.457e-15) hL.square hL.squareReturns (by norm_num) (by norm_num) (by norm_num)
  obtain ⟨r, N, o6, o7, hN⟩ := hE.radius hs2 (sq_nonneg _) (sq_nonneg _) e_sq_lt
  obtain ⟨o8, htl⟩ := ht.tan (c := 0.1044) (E := 3.6242e-14) (C := 9.579) (g := 3.837e-14) hL.trig (cos_84 h0) (by norm_num)
    (by norm_num) (by norm_num) (by norm_num) (by norm_num)
  obtain ⟨T, o9, hT⟩ := htl.square (C := 9.17573e1) (g := 7.555e-13) hL.square hL.squareReturns (by norm_num) (by norm_num) (by norm_num)
  obtain ⟨o10, hc⟩ := ht.cos (g := 6.171e-16) hL.trig (by norm_num)
  obtain ⟨c2, o11, hc2⟩ := hc.square (C := 1) (g := 1.457e-15) hL.square hL.squareReturns (by norm_num) (by norm_num) (by norm_num)
  have hC := hep.mul hc2 (C := 6.75e-3) (g := 1.845e-16) (by norm_num) (by norm_num) (by norm_num)
  have hA := hd.mul hc (C := 1.0473e-1) (g := 3.542e-15) (by norm_num) (by norm_num) (by norm_num)
  obtain ⟨M, o12, hM⟩ := meridian_near hL hE ht
  obtain ⟨x, o13, hx⟩ := easting_near hL hN hT hC hA hep
  obtain ⟨y, o14, hy⟩ := northing_near hL hM hN htl hT hC hA hep
  obtain ⟨k, o15, hk⟩ := scale_near hL hT hC hA hep
  refine ⟨⟨![x, y, lla 2], (z, Dbl.utmLetterDesignator (lla 0)), k⟩, ?_, ?_, ?_, ?_, ?_, ?_⟩
  · exact lla2utm_ok hz o1 o2 o3 o4 o5 o6 o7 o8 o9 o10 o11 o12 o13 o14 o15
  · simp only [lla2utm, Matrix.cons_val]
    rw [hz', letter_eq f0]
  · simp only [Matrix.cons_val]
  · simp only [lla2utm, Matrix.cons_val, hz']
    exact hx.1.mono (by norm_num)
  · simp only [lla2utm, Matrix.cons_val, hz']
    exact hy.1.mono (by norm_num)
  · simp only [lla2utm, Matrix.cons_val, hz']
    exact hk.1.mono (by norm_num)

theorem utm_shown {L : Dbl.CMath} (hL : L.Accurate) {lla : Dbl.Vec} (f0 : (lla 0).Finite) (f1 : (lla 1).Finite)
    (h0 : |ofDouble (lla 0)| ≤ 84) (h1 : -180 ≤ ofDouble (lla 1)) (h2 : ofDouble (lla 1) ≤ 180) (alt : ℝ) :
    ∃ (l : ℝ) (U : Dbl.Utm), (l = ofDouble (lla 1) ∨ ∃ k : ℤ, l = 6 * k ∧ l - 1e-13 < ofDouble (lla 1) ∧ ofDouble (lla 1) < l) ∧
      Dbl.lla2utm L lla = .ok U ∧ U.zone = (lla2utm ![ofDouble (lla 0), l, alt]).zone ∧ U.utm 2 = lla 2 ∧
      Ap (U.utm 0) ((lla2utm ![ofDouble (lla 0), l, alt]).utm 0) 3.8e-8 ∧
      Ap (U.utm 1) ((lla2utm ![ofDouble (lla 0), l, alt]).utm 1) 4.6e-8 ∧
      Ap U.k (lla2utm ![ofDouble (lla 0), l, alt]).k 1.3e-15 := by
  have h3 : |ofDouble (lla 1)| ≤ 180 := abs_le.2 ⟨by linarith, h2⟩
  obtain ⟨z, e1, z61, hz⟩ := zone_dbl f0 f1 h1 h2
  have pos {l : ℝ} (hl : -180 ≤ l) (h6 : |l - (6 * (z : ℝ) - 183)| ≤ 6) : 0 ≤ z := by
    have := (abs_le.1 h6).2
    have : (-1 : ℝ) < z := by linarith
    have : -1 < z := by exact_mod_cast this
    omega
  rcases hz with hz | ⟨-, b1, b2, hz⟩
  · have h6 := zone_near (ofDouble (lla 0)) (ofDouble (lla 1)) h1
    rw [← hz] at h6
    obtain ⟨U, h⟩ := utm_near hL f0 f1 h0 h3 (l := ofDouble (lla 1)) (by rw [sub_self, abs_zero]; norm_num) e1 (pos h1 h6) z61
      hz.symm h6 alt
    exact ⟨_, U, Or.inl rfl, h⟩
  · have h6 : |6 * (z : ℝ) - 186 - (6 * (z : ℝ) - 183)| ≤ 6 := by
      rw [show 6 * (z : ℝ) - 186 - (6 * (z : ℝ) - 183) = -3 by ring]; norm_num
    obtain ⟨U, h⟩ := utm_near hL f0 f1 h0 h3 (l := 6 * (z : ℝ) - 186)
      (by rw [abs_le]; norm_num at b1 ⊢; constructor <;> linarith) e1 (pos (by linarith) h6) z61 hz h6 alt
    refine ⟨_, U, Or.inr ⟨z - 31, by push_cast; ring, b1, b2⟩, h⟩

theorem gravity_near {P : Dbl.Platform} (h1 : P.SquareOk) (h2 : P.SquareReturns) (h3 : P.TrigOk) {x : F64} (hx : x.Finite) :
    ∃ y, Dbl.g0 P x = .ok y ∧ Ap y (WGS84.g0 (ofDouble x)) 6e-15 := by
  have c1 : Bd (BitVec.ofNat 64 0x40238F86FD979250) 9.7803267715 9.7803267715 9e-16 := by
    refine ⟨⟨by unfold F64.Finite; decide +kernel, ?_⟩, by norm_num⟩
    rw [val_units (m := 0x138f86fd979250) 1025 49 (by decide +kernel) rfl]
    norm_num
  have c2 : Bd (BitVec.ofNat 64 0x3F5FA6C5987087F4) 0.001931851353 0.001931851353 2.2e-19 := by
    refine ⟨⟨by unfold F64.Finite; decide +kernel, ?_⟩, by norm_num⟩
    rw [val_units (m := 0x1fa6c5987087f4) 1012 62 (by decide +kernel) rfl]
    norm_num
  have c3 : Bd (BitVec.ofNat 64 0x3F7B6B90F43EE0EF) 0.0066943800229 0.0066943800229 4.4e-19 := by
    refine ⟨⟨by unfold F64.Finite; decide +kernel, ?_⟩, by norm_num⟩
    rw [val_units (m := 0x1b6b90f43ee0ef) 1014 60 (by decide +kernel) rfl]
    norm_num
  have hb : Bd x (ofDouble x) |ofDouble x| 0 := ⟨Ap.self hx, le_rfl⟩
  obtain ⟨o1, s1⟩ := hb.sin (g := 2.221e-16) h3 (by norm_num)
  obtain ⟨s2, o2, b2⟩ := s1.square (C := 1) (g := 6.663e-16) h1 h2 (by norm_num) (by norm_num) (by norm_num)
  have n1 : Bd (Dbl.num 1) 1 1 0 := Bd.num 1 (by norm_num) (by norm_num)
  have q0 := sq_nonneg (Real.sin (ofDouble x))
  have q1 : Real.sin (ofDouble x) ^ 2 ≤ 1 := Real.sin_sq_le_one _
  have d : 0.9933 ≤ 1 - 0.0066943800229 * Real.sin (ofDouble x) ^ 2 := by linarith
  have b3 : Bd _ _ 6.69439e-3 5.644e-18 := c3.mul b2 (by norm_num) (by norm_num) (by norm_num)
  have b4 : Bd _ _ 1 1.167e-16 := n1.sub_of b3 (by rw [abs_of_nonneg] <;> norm_num at d ⊢ <;> linarith) (by norm_num) (by norm_num)
  have b5 : Bd _ _ 1.93186e-3 1.722e-18 := c2.mul b2 (by norm_num) (by norm_num) (by norm_num)
  have b6 : Bd _ _ 1.00194 1.13e-16 := n1.add b5 (by norm_num) (by norm_num) (by norm_num)
  have b7 : Bd _ _ 9.79931 3.095e-15 := c1.mul b6 (by norm_num) (by norm_num) (by norm_num)
  have r2 : Real.sqrt (1 - 0.0066943800229 * Real.sin (ofDouble x) ^ 2) ≤ 1 := Real.sqrt_le_one.2 (by linarith)
  have r1 : 0.9966 ≤ Real.sqrt (1 - 0.0066943800229 * Real.sin (ofDouble x) ^ 2) :=
    Real.le_sqrt_of_sq_le (by norm_num at d ⊢; linarith)
  obtain ⟨r, o3, hr⟩ := b4.1.sqrt (q := 0.9966) (S := 1) (g := 1.696e-16) (by norm_num) (by norm_num at d ⊢; linarith) r2 (by norm_num)
  obtain ⟨h4, h5⟩ := b7.1.div hr (Q := 9.84) (B := 0.9966) (g := 6e-15)
    (by
      have p : (0 : ℝ) < 0.9966 := by norm_num
      rw [abs_div, abs_of_pos (p.trans_le r1), div_le_iff₀ (p.trans_le r1)]
      refine b7.2.trans ?_
      norm_num at r1 ⊢
      linarith)
    (r1.trans (le_abs_self _)) (by norm_num) (by norm_num) (by norm_num)
  refine ⟨_, ?_, h4⟩
  unfold Dbl.g0
  rw [o1, bind_ok, o2, bind_ok, o3, bind_ok, pyDiv_ok h5]

theorem zone_nan {lat lon : F64} (h1 : lon.expo = 2047) (h2 : lon.frac ≠ 0) : Dbl.zoneNumber lat lon = .error .valueError := by
  have e1 : F64.add lon (Dbl.num 180) = F64.nan := by
    unfold F64.add
    rw [if_pos h1, if_pos h2]
  have e2 : Dbl.truncate (F64.div F64.nan (Dbl.num 6)) = .error .valueError := by decide +kernel
  unfold Dbl.zoneNumber
  rw [e1, e2]
  rfl

theorem zone_infinite {lat lon : F64} (h : lon.Infinite) : Dbl.zoneNumber lat lon = .error .overflowError := by
  obtain ⟨h1, h2⟩ := h
  have e1 : F64.add lon (Dbl.num 180) = lon := by
    unfold F64.add
    rw [if_pos h1, if_neg (not_not.2 h2), if_neg (by decide +kernel)]
  have e2 : F64.div lon (Dbl.num 6) = F64.inf ((lon.sign + (Dbl.num 6).sign) % 2) := by
    unfold F64.div
    dsimp only
    rw [if_neg, if_pos h1, if_neg (by decide +kernel)]
    rintro (⟨-, h⟩ | ⟨h, -⟩)
    · exact h h2
    · revert h; decide +kernel
  have e3 : ∀ s < 2, Dbl.truncate (F64.inf s) = .error .overflowError := by decide +kernel
  unfold Dbl.zoneNumber
  rw [e1, e2, e3 _ (Nat.mod_lt _ (by decide))]
  rfl

theorem zone_returns (lat : F64) {lon : F64} (hf : lon.Finite) (h0 : -180 ≤ ofDouble lon) (h1 : ofDouble lon ≤ 180) :
    ∃ z : ℤ, Dbl.zoneNumber lat lon = .ok z ∧ 0 ≤ z ∧ z ≤ 61 := by
  obtain ⟨n, e1, ⟨n0, n60⟩, -⟩ := zone_first hf h0 h1
  unfold Dbl.zoneNumber
  rw [e1, bind_ok]
  refine ⟨_, rfl, ?_⟩
  split_ifs <;> omega

theorem utm_infinite {L : Dbl.CMath} (hL : L.Accurate) {lla : Dbl.Vec} (h : (lla 0).Infinite) (hlon : (lla 1).Finite)
    (h1 : -180 ≤ ofDouble (lla 1)) (h2 : ofDouble (lla 1) ≤ 180) : Dbl.lla2utm L lla = .error .valueError := by
  obtain ⟨z, e1, z0, z1⟩ := zone_returns (lla 0) hlon h1 h2
  obtain ⟨lo, o1, -⟩ := fromInt_ok (n := (z - 1) * 6 - 180 + 3) (by omega)
  obtain ⟨E, o2, hE⟩ := Bd.eSquared hL
  obtain ⟨ep, o3, hep⟩ := hE.ePrime
  have o4 : Dbl.trig L.sin (Dbl.deg2rad (lla 0)) = .error .valueError := if_pos (deg2rad_infinite h)
  unfold Dbl.lla2utm
  dsimp only
  rw [e1, bind_ok, o1, bind_ok, o2, bind_ok, o3, bind_ok, o4]
  rfl

/-- The reference library with `pow`. -/
noncomputable def referenceCMath : Dbl.CMath where
  toLibm := referenceLibm
  pow x n := .ok (near (ofDouble x ^ n))

theorem referenceCMath_accurate : referenceCMath.Accurate where
  square := reference_square
  squareReturns := reference_returns
  trig := reference_trig
  pow := by
    intro x n h3 h6 hx h
    refine ⟨_, rfl, near_spec ?_⟩
    rw [abs_pow]
    calc |ofDouble x| ^ n ≤ (2 ^ 100) ^ n := pow_le_pow_left₀ (abs_nonneg _) h n
      _ = 2 ^ (100 * n) := by rw [← pow_mul]
      _ ≤ 2 ^ 1000 := pow_le_pow_right₀ (by norm_num) (by omega)

end Dis.Geo
