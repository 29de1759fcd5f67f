import Verif.Proof.Geodetic64c

/-!
# The loop of `ecef2lla` in doubles near the ellipsoid
-/

set_option exponentiation.threshold 4096

namespace Dis.Geo

open WGS84

/-! ## Comparisons -/

theorem abs_finite {x : F64} (h : x.Finite) : (F64.abs x).Finite := by
  unfold F64.abs F64.Finite at *
  rw [F64.expo_mk (by decide) x.expo_lt x.frac_lt]
  exact h

theorem val_abs (x : F64) : ofDouble (F64.abs x) = |ofDouble x| := by
  have h1 : (F64.abs x).units = (x.mag : Int) := by
    have hs : (F64.abs x).sign = 0 := F64.sign_mk (by decide) x.expo_lt x.frac_lt
    have he : (F64.abs x).expo = x.expo := F64.expo_mk (by decide) x.expo_lt x.frac_lt
    have hf : (F64.abs x).frac = x.frac := F64.frac_mk (by decide) x.expo_lt x.frac_lt
    unfold F64.units
    rw [if_neg (by rw [hs]; decide), F64.mag_eq, F64.mag_eq, he, hf]
  unfold ofDouble
  have hU : (0 : ℝ) < 2 ^ 1074 := by positivity
  rw [h1, abs_div, abs_of_pos hU, ← F64.units_abs, Int.natCast_natAbs, Int.cast_abs]

theorem le_false_iff {x y : F64} (hx : x.Finite) (hy : y.Finite) : F64.le x y = false ↔ ofDouble y < ofDouble x := by
  have n1 : x.isNan = false := by
    unfold F64.isNan; rw [decide_eq_false_iff_not]; exact fun h => hx h.1
  have n2 : y.isNan = false := by
    unfold F64.isNan; rw [decide_eq_false_iff_not]; exact fun h => hy h.1
  unfold F64.le ofDouble
  have hU : (0 : ℝ) < 2 ^ 1074 := by positivity
  rw [n1, n2, div_lt_div_iff_of_pos_right hU, Int.cast_lt]
  simp

/-- The difference of latitudes the loop looks at. -/
theorem lat_change {x y : F64} {u v δ : ℝ} (hx : Ap x u δ) (hy : Ap y v δ) (hu : |u - v| ≤ 4) (hδ : δ ≤ 1e-6) :
    Ap (F64.abs (F64.sub x y)) |u - v| (2 * δ + 1e-15) := by
  have hδ0 := hx.nonneg
  have h := Ap.sub (g := 2 * δ + 1e-15) hx hy hu (by norm_num; linarith) (by
    have := tiny
    norm_num at hδ ⊢
    linarith)
  refine ⟨abs_finite h.1, ?_⟩
  rw [val_abs]
  exact (abs_abs_sub_abs_le _ _).trans h.2

theorem arctan_diff (x y : ℝ) : |Real.arctan x - Real.arctan y| ≤ 4 := by
  have h1 := Real.arctan_lt_pi_div_two x
  have h2 := Real.neg_pi_div_two_lt_arctan x
  have h3 := Real.arctan_lt_pi_div_two y
  have h4 := Real.neg_pi_div_two_lt_arctan y
  have h5 := Real.pi_lt_d2
  norm_num at h5
  rw [abs_le]
  constructor <;> linarith

/-- How far apart two states are. -/
noncomputable def dist64 (s s' : Dbl.LoopState) : ℝ := |ofDouble s.N - ofDouble s'.N| + |den s - den s'|

section
variable {t h : ℝ} (ht : -(Real.pi / 2) < t ∧ t < Real.pi / 2) (hh : |h| ≤ 100000)
include ht hh

omit ht in
theorem dist64_le {s s' : Dbl.LoopState} (hs : Near64 t h s) (hs' : Near64 t h s') : dist64 s s' ≤ 3271 := by
  obtain ⟨-, -, i1, i2⟩ := hs
  obtain ⟨-, -, j1, j2⟩ := hs'
  unfold dist64
  have k1 := abs_sub_tri (ofDouble s.N) (NN t) (ofDouble s'.N)
  have k2 := abs_sub_tri (den s) (NN t * (1 - e ^ 2) + h) (den s')
  rw [abs_sub_comm (NN t)] at k1
  rw [abs_sub_comm (NN t * (1 - e ^ 2) + h)] at k2
  norm_num at i1 i2 j1 j2 ⊢
  linarith

/-- Two exact rounds from states near the truth. -/
theorem contract64 {s s' : Dbl.LoopState} (hs : Near64 t h s) (hs' : Near64 t h s') :
    |W ((NN t * (1 - e ^ 2) + h) * Real.sin t) (ofDouble s.N) (den s)
      - W ((NN t * (1 - e ^ 2) + h) * Real.sin t) (ofDouble s'.N) (den s')| ≤ 0.00696 * dist64 s s' ∧
    |SN ((NN t * (1 - e ^ 2) + h) * Real.sin t) (den s) - SN ((NN t * (1 - e ^ 2) + h) * Real.sin t) (den s')|
      ≤ 0.00776 * |den s - den s'| := by
  obtain ⟨-, -, i1, i2⟩ := hs
  obtain ⟨-, -, j1, j2⟩ := hs'
  obtain ⟨-, -, bD, bN, bs⟩ := next_errors_wide ht hh i1 i2
  obtain ⟨-, -, bD', bN', bs'⟩ := next_errors_wide ht hh j1 j2
  have hN0 : 0 ≤ ofDouble s.N := le_trans (by norm_num) bN.1
  have hD0 : 0 < den s := lt_of_lt_of_le (by norm_num) bD.1
  have w := W_lip (z := (NN t * (1 - e ^ 2) + h) * Real.sin t) (N := ofDouble s.N) (N' := ofDouble s'.N) (D := den s)
    (D' := den s') (ν := 6.41e6) (by rw [abs_of_nonneg hN0]; exact bN.2) bs'
  have sl := s_lip (z := (NN t * (1 - e ^ 2) + h) * Real.sin t) (D := den s) (D' := den s') (d := 6.234e6)
    (by norm_num) hD0 bD'.1 bs
  have n := N_lip (bs.trans (by norm_num)) (bs'.trans (by norm_num))
  change |SN _ _ - SN _ _| ≤ _ at n
  unfold dist64
  have ha : a = 6378137 := by unfold a; norm_num
  rw [ha] at n
  have := abs_nonneg (ofDouble s.N - ofDouble s'.N)
  have := abs_nonneg (den s - den s')
  norm_num at w sl n ⊢
  constructor <;> linarith

/-- The rounds bring states together, up to the rounding errors. -/
theorem contract64' {L : Dbl.Libm} (h1 : L.SquareOk) (h2 : L.SquareReturns) (h3 : L.TrigOk) (h4 : L.ArcOk) {ph zh : F64}
    (hp : Ap ph ((NN t + h) * Real.cos t) 1e-6)
    (hz : Ap zh ((NN t * (1 - e ^ 2) + h) * Real.sin t) 1e-6) (bp : 1 ≤ (NN t + h) * Real.cos t)
    {s s' u u' : Dbl.LoopState} (hs : Near64 t h s) (hs' : Near64 t h s')
    (hu : Dbl.ecef2lla_body L ph zh s = .ok u) (hu' : Dbl.ecef2lla_body L ph zh s' = .ok u') :
    dist64 u u' ≤ 0.0148 * dist64 s s' + 0.0961 := by
  obtain ⟨v, b1, -, -, -, b4, b5, -⟩ := next64 ht hh h1 h2 h3 h4 hp hz bp hs
  obtain ⟨v', b1', -, -, -, b4', b5', -⟩ := next64 ht hh h1 h2 h3 h4 hp hz bp hs'
  rw [hu] at b1
  rw [hu'] at b1'
  injection b1 with b1
  injection b1' with b1'
  subst b1 b1'
  obtain ⟨w, n⟩ := contract64 ht hh hs hs'
  have r := R_lip ((NN t + h) * Real.cos t) (W ((NN t * (1 - e ^ 2) + h) * Real.sin t) (ofDouble s.N) (den s))
    (W ((NN t * (1 - e ^ 2) + h) * Real.sin t) (ofDouble s'.N) (den s'))
  have q4 := b4.2
  have q5 := b5.2
  have q4' := b4'.2
  have q5' := b5'.2
  have hE := e_sq_lt
  have hE0 := sq_nonneg e
  have hn1 := abs_nonneg (ofDouble s.N - ofDouble s'.N)
  have hn2 := abs_nonneg (den s - den s')
  have hw : |R ((NN t + h) * Real.cos t) (W ((NN t * (1 - e ^ 2) + h) * Real.sin t) (ofDouble s.N) (den s))
    - R ((NN t + h) * Real.cos t) (W ((NN t * (1 - e ^ 2) + h) * Real.sin t) (ofDouble s'.N) (den s'))|
      ≤ 0.00696 * dist64 s s' := r.trans w
  clear r w hu hu'
  unfold dist64 at hw ⊢
  generalize R ((NN t + h) * Real.cos t) (W ((NN t * (1 - e ^ 2) + h) * Real.sin t) (ofDouble s.N) (den s)) = r1 at *
  generalize R ((NN t + h) * Real.cos t) (W ((NN t * (1 - e ^ 2) + h) * Real.sin t) (ofDouble s'.N) (den s')) = r2 at *
  generalize SN ((NN t * (1 - e ^ 2) + h) * Real.sin t) (den s) = n1 at *
  generalize SN ((NN t * (1 - e ^ 2) + h) * Real.sin t) (den s') = n2 at *
  have k1 : |ofDouble u.N - ofDouble u'.N| ≤ 1.3e-8 + |n1 - n2| + 1.3e-8 := by
    rw [show ofDouble u.N - ofDouble u'.N = (ofDouble u.N - n1) + (n1 - n2) - (ofDouble u'.N - n2) by ring]
    refine (abs_sub _ _).trans (add_le_add ((abs_add_le _ _).trans (add_le_add q4 le_rfl)) q4')
  have k2 : |den u - den u'| ≤ 0.096 + 2.6e-8 + |r1 - r2| + 0.0066944 * |n1 - n2| := by
    have e1 : den u - den u' = (ofDouble u.alt - (r1 - n1)) - (ofDouble u'.alt - (r2 - n2))
        + ((ofDouble u.N - n1) - (ofDouble u'.N - n2)) * (1 - e ^ 2) + (r1 - r2) - e ^ 2 * (n1 - n2) := by
      unfold den; ring
    rw [e1]
    refine (abs_sub _ _).trans (add_le_add ((abs_add_le _ _).trans (add_le_add ((abs_add_le _ _).trans
      (add_le_add ?_ ?_)) le_rfl)) ?_)
    · refine (abs_sub _ _).trans ((add_le_add q5 q5').trans ?_)
      norm_num
    · rw [abs_mul, abs_of_nonneg (show 0 ≤ 1 - e ^ 2 by linarith)]
      have g := (abs_sub (ofDouble u.N - n1) (ofDouble u'.N - n2)).trans (add_le_add q4 q4')
      have g0 := abs_nonneg ((ofDouble u.N - n1) - (ofDouble u'.N - n2))
      norm_num at g ⊢
      nlinarith
    · rw [abs_mul, abs_of_nonneg hE0]
      exact mul_le_mul_of_nonneg_right hE.le (abs_nonneg _)
  norm_num at k1 k2 hw n ⊢
  linarith only [k1, k2, hw, n, hn1, hn2]

omit ht hh in
theorem init_N : Dbl.ecef2lla_init.N = Dbl.WGS84.a := by delta Dbl.ecef2lla_init; with_reducible rfl

omit ht hh in
theorem init_alt : Dbl.ecef2lla_init.alt = Dbl.num 0 := by delta Dbl.ecef2lla_init; with_reducible rfl

/-- The first round. -/
theorem first64 {L : Dbl.Libm} (h1 : L.SquareOk) (h2 : L.SquareReturns) (h3 : L.TrigOk) (h4 : L.ArcOk) {ph zh : F64}
    (hp : Ap ph ((NN t + h) * Real.cos t) 1e-6)
    (hz : Ap zh ((NN t * (1 - e ^ 2) + h) * Real.sin t) 1e-6) (bp : 1 ≤ (NN t + h) * Real.cos t) :
    ∃ s', Dbl.ecef2lla_body L ph zh Dbl.ecef2lla_init = .ok s' ∧ s'.previousLat = Dbl.num 0 ∧ Near64 t h s' ∧
      Ap s'.lat (lats ((NN t + h) * Real.cos t) ((NN t * (1 - e ^ 2) + h) * Real.sin t) 1) 1.1e-12 ∧
      Ap s'.alt ((xs ((NN t + h) * Real.cos t) ((NN t * (1 - e ^ 2) + h) * Real.sin t) 1).2
        - (xs ((NN t + h) * Real.cos t) ((NN t * (1 - e ^ 2) + h) * Real.sin t) 1).1 * (1 - e ^ 2)) 0.048 := by
  obtain ⟨i1, i2⟩ := errors ht hh 0
  have hE := e_sq_lt
  have hE0 := e_sq_gt
  have hE1 := sq_nonneg e
  have hh0 := abs_nonneg h
  have ha : a = 6378137 := by unfold a; norm_num
  have hsin : |(NN t * (1 - e ^ 2) + h) * Real.sin t / (a * (1 - e ^ 2))| ≤ 1.04 := by
    have g1 := sin_first (t := t) hh (Real.abs_sin_le_one t)
    have g2 := sin_true (t := t) hh
    generalize (NN t * (1 - e ^ 2) + h) * Real.sin t / (NN t * (1 - e ^ 2) + h) = u at *
    generalize (NN t * (1 - e ^ 2) + h) * Real.sin t / (a * (1 - e ^ 2)) = v at *
    have g3 : |v| ≤ |u| + |u - v| := by
      have := abs_sub_abs_le_abs_sub v u
      rw [abs_sub_comm v u] at this
      linarith
    rw [ha] at g1
    norm_num at g1 ⊢
    linarith
  obtain ⟨s', b1, b2, b3, b4, b5⟩ := step64' (s := Dbl.ecef2lla_init) (N := a) (D := a * (1 - e ^ 2)) h1 h2 h3 h4 hp hz
    (by rw [init_N]; exact Ap.a) (by rw [sub_self, init_alt]; have := Ap.num (n := 0) (by decide); rw [Nat.cast_zero] at this; exact this) bp
    ⟨by rw [ha]; norm_num, by rw [ha]; norm_num⟩ ⟨by rw [ha]; norm_num; linarith, by rw [ha]; norm_num; linarith⟩
    hsin (R_range ht hh)
  change Ap s'.lat (lats _ _ 1) _ at b3
  change Ap s'.N (xs ((NN t + h) * Real.cos t) ((NN t * (1 - e ^ 2) + h) * Real.sin t) 1).1 _ at b4
  have hx : R ((NN t + h) * Real.cos t) (W ((NN t * (1 - e ^ 2) + h) * Real.sin t) a (a * (1 - e ^ 2)))
      - SN ((NN t * (1 - e ^ 2) + h) * Real.sin t) (a * (1 - e ^ 2))
      = (xs ((NN t + h) * Real.cos t) ((NN t * (1 - e ^ 2) + h) * Real.sin t) 1).2
        - (xs ((NN t + h) * Real.cos t) ((NN t * (1 - e ^ 2) + h) * Real.sin t) 1).1 * (1 - e ^ 2) := by
    simp only [xs, stepND]
    ring
  rw [hx] at b5
  refine ⟨s', b1, b2, ⟨b4.1, b5.1, ?_, ?_⟩, b3, b5⟩
  · refine (abs_sub_tri _ _ _).trans ((add_le_add b4.2 i1).trans ?_)
    norm_num
    linarith
  · have q4 := b4.2
    have q5 := b5.2
    rw [zero_add] at i1 i2
    unfold den
    generalize (xs ((NN t + h) * Real.cos t) ((NN t * (1 - e ^ 2) + h) * Real.sin t) 1).1 = n1 at *
    generalize (xs ((NN t + h) * Real.cos t) ((NN t * (1 - e ^ 2) + h) * Real.sin t) 1).2 = d1 at *
    have e1 : ofDouble s'.alt + ofDouble s'.N * (1 - e ^ 2) - (NN t * (1 - e ^ 2) + h)
        = (ofDouble s'.alt - (d1 - n1 * (1 - e ^ 2))) + (ofDouble s'.N - n1) * (1 - e ^ 2)
          + (d1 - (NN t * (1 - e ^ 2) + h)) := by ring
    rw [e1]
    refine (abs_add_le _ _).trans ((add_le_add (abs_add_le _ _) le_rfl).trans ?_)
    rw [abs_mul, abs_of_nonneg (show 0 ≤ 1 - e ^ 2 by linarith)]
    have k2 : |ofDouble s'.N - n1| * (1 - e ^ 2) ≤ 1.3e-8 := by nlinarith [abs_nonneg (ofDouble s'.N - n1)]
    norm_num at q5 k2 i2 ⊢
    linarith only [q5, k2, i2, hh0]

end

end Dis.Geo
