import Verif.Proof.Geodetic
import Mathlib.Analysis.SpecialFunctions.Trigonometric.Bounds
import Mathlib.Analysis.Real.Pi.Bounds

/-!
# Where the iteration of `ecef2lla` goes
-/

namespace Dis.Geo

set_option linter.unusedSectionVars false

open WGS84 Matrix

theorem NN_bounds (t : ℝ) : a ≤ NN t ∧ NN t ≤ 1.0034 * a := by
  have h1 := Real.sin_sq_le_one t
  have h2 := e_sq_lt
  have h3 := sq_nonneg (Real.sin t)
  have h4 := one_sub_pos t
  have ha := a_pos
  have l : 0.99663 ≤ Real.sqrt (1 - (e * Real.sin t) ^ 2) := by
    apply Real.le_sqrt_of_sq_le; rw [mul_pow]; nlinarith [sq_nonneg e]
  have u : Real.sqrt (1 - (e * Real.sin t) ^ 2) ≤ 1 := by
    rw [Real.sqrt_le_iff]; constructor
    · norm_num
    · nlinarith [sq_nonneg (e * Real.sin t)]
  unfold NN
  constructor
  · rw [le_div_iff₀ (by linarith)]; nlinarith
  · rw [div_le_iff₀ (by linarith)]; nlinarith

section
variable {t h : ℝ} (ht : -(Real.pi / 2) < t ∧ t < Real.pi / 2) (hh : 0 < NN t * (1 - e ^ 2) + h)
include ht hh

omit ht in
theorem sum_pos : 0 < NN t + h := by
  have := NN_pos t
  have := e_sq_gt
  nlinarith

omit hh in
theorem cos_pos' : 0 < Real.cos t := Real.cos_pos_of_mem_Ioo ⟨ht.1, ht.2⟩

omit ht in
theorem true_sin : (NN t * (1 - e ^ 2) + h) * Real.sin t / (NN t * (1 - e ^ 2) + h) = Real.sin t := by
  field_simp

theorem true_SN : SN ((NN t * (1 - e ^ 2) + h) * Real.sin t) (NN t * (1 - e ^ 2) + h) = NN t := by
  unfold SN; rw [true_sin hh]; rfl

theorem true_W : W ((NN t * (1 - e ^ 2) + h) * Real.sin t) (NN t) (NN t * (1 - e ^ 2) + h)
    = (NN t + h) * Real.sin t := by
  unfold W; rw [true_sin hh]; ring

theorem true_R : R ((NN t + h) * Real.cos t) ((NN t + h) * Real.sin t) = NN t + h := by
  have e1 : ((NN t + h) * Real.cos t) ^ 2 + ((NN t + h) * Real.sin t) ^ 2 = (NN t + h) ^ 2 := by
    have := Real.sin_sq_add_cos_sq t; linear_combination (NN t + h) ^ 2 * this
  unfold R; rw [e1, Real.sqrt_sq (sum_pos hh).le]

theorem true_lat : Real.arctan (W ((NN t * (1 - e ^ 2) + h) * Real.sin t) (NN t) (NN t * (1 - e ^ 2) + h)
    / ((NN t + h) * Real.cos t)) = t := by
  rw [true_W ht hh, mul_div_mul_left _ _ (sum_pos hh).ne', ← Real.tan_eq_sin_div_cos,
    Real.arctan_tan ht.1 ht.2]

theorem true_fixed : stepND ((NN t + h) * Real.cos t) ((NN t * (1 - e ^ 2) + h) * Real.sin t)
    (NN t, NN t * (1 - e ^ 2) + h) = (NN t, NN t * (1 - e ^ 2) + h) := by
  unfold stepND
  simp only
  rw [true_W ht hh, true_SN ht hh, true_R ht hh]
  congr 1
  ring

theorem true_R_le : R ((NN t + h) * Real.cos t) ((NN t * (1 - e ^ 2) + h) * Real.sin t) ≤ NN t + h := by
  have h1 := Real.sin_sq_add_cos_sq t
  have h2 := sum_pos hh
  have h3 := NN_pos t
  have h4 := e_sq_gt
  unfold R
  rw [Real.sqrt_le_iff]
  refine ⟨h2.le, ?_⟩
  have h5 : (NN t * (1 - e ^ 2) + h) ^ 2 ≤ (NN t + h) ^ 2 := by
    apply pow_le_pow_left₀ hh.le; nlinarith
  have h6 := mul_le_mul_of_nonneg_right h5 (sq_nonneg (Real.sin t))
  nlinarith

theorem true_reg (hr : a / 10 ≤ R ((NN t + h) * Real.cos t) ((NN t * (1 - e ^ 2) + h) * Real.sin t)) :
    Reg ((NN t + h) * Real.cos t) ((NN t * (1 - e ^ 2) + h) * Real.sin t) (NN t, NN t * (1 - e ^ 2) + h) := by
  have h1 := true_R_le ht hh
  have h2 := NN_bounds t
  have ha := a_pos
  have hE := e_sq_lt
  have hE0 := e_sq_gt
  refine ⟨h2.1, by simp only; linarith, ?_⟩
  simp only
  have : e ^ 2 * NN t ≤ 0.0066944 * (1.0034 * a) :=
    mul_le_mul hE.le h2.2 (NN_pos t).le (by norm_num)
  linarith

/-- Every round brings `(N, D)` five times closer to the truth. -/
theorem converges (hr : a / 10 ≤ R ((NN t + h) * Real.cos t) ((NN t * (1 - e ^ 2) + h) * Real.sin t))
    (hz : |(NN t * (1 - e ^ 2) + h) * Real.sin t| ≤ 12 * a) {ε : ℝ} (hε : 0 < ε) :
    ∃ n₀, ∀ n, n₀ ≤ n → ∃ s, ecef2lla_after ((NN t + h) * Real.cos t) ((NN t * (1 - e ^ 2) + h) * Real.sin t) n
      = .ok s ∧ |s.lat - t| < ε ∧ |s.alt - h| < ε := by
  have hp : 0 < (NN t + h) * Real.cos t := mul_pos (sum_pos hh) (cos_pos' ht)
  have hreg := true_reg ht hh hr
  have hfix := true_fixed ht hh
  have hlat := true_lat ht hh
  have ha := a_pos
  have hE := e_sq_lt
  have hE0 := e_sq_gt
  generalize hpp : (NN t + h) * Real.cos t = p at *
  generalize hzz : (NN t * (1 - e ^ 2) + h) * Real.sin t = z at *
  have hR : 0 < R p z := by linarith
  set y : ℝ × ℝ := (NN t, NN t * (1 - e ^ 2) + h) with hy
  have hR1 : 1 ≤ R p z := by
    have : 10 ≤ a := by unfold a; norm_num
    linarith
  have hd0 : 0 ≤ dND (xs p z 1) y := by unfold dND; positivity
  obtain ⟨n₀, hn⟩ := exists_pow_lt_of_lt_one (y := (1 / 5 : ℝ))
    (show 0 < ε / (2 * (dND (xs p z 1) y + 1)) by positivity) (by norm_num)
  refine ⟨n₀ + 2, fun n hle => ?_⟩
  obtain ⟨k, rfl⟩ : ∃ k, n = k + 2 := ⟨n - 2, by omega⟩
  refine ⟨_, after_eq hp (xs_good hr hz) _, ?_⟩
  have hk : (1 / 5 : ℝ) ^ k ≤ (1 / 5) ^ n₀ := pow_le_pow_of_le_one (by norm_num) (by norm_num) (by omega)
  have hx := xs_dist hr hz hreg hfix k
  have hlt : dND (xs p z (k + 1)) y < ε / 2 := by
    refine hx.trans_lt ?_
    have h1 := hk.trans_lt hn
    rw [lt_div_iff₀ (by positivity)] at h1
    have : (0 : ℝ) < (1 / 5) ^ k := by positivity
    nlinarith
  have hx1 := xs_reg hr hz k
  have hc := contracts hr hx1 hreg
  have hnn : 0 ≤ dND (xs p z (k + 1)) y := by unfold dND; positivity
  constructor
  · have hll := lat_lip hp (z := z) (by linarith [hx1.1] : 0 ≤ (xs p z (k + 1)).1) (hx1.pos hr)
      (by linarith [hreg.1] : 0 ≤ y.1) (hreg.pos hr)
    rw [show Real.arctan (W z y.1 y.2 / p) = t from hlat] at hll
    change |Real.arctan _ - t| < ε
    refine hll.trans_lt ?_
    rw [div_lt_iff₀ hR]
    nlinarith
  · have h2 : dND (xs p z (k + 2)) y ≤ dND (xs p z (k + 1)) y / 5 := by
      have := hc.2; rw [hfix] at this; exact this
    have e1 : (xs p z (k + 2)).2 - (xs p z (k + 2)).1 * (1 - e ^ 2) - h
        = ((xs p z (k + 2)).2 - y.2) - ((xs p z (k + 2)).1 - y.1) * (1 - e ^ 2) := by
      simp only [hy]; ring
    simp only [e1]
    refine (abs_sub _ _).trans_lt ?_
    rw [abs_mul, abs_of_pos (show 0 < 1 - e ^ 2 by linarith)]
    unfold dND at h2 hlt hnn
    have := abs_nonneg ((xs p z (k + 2)).1 - y.1)
    nlinarith

end

/-- A state that a round leaves alone denotes the point. -/
theorem fixed_true {p z : ℝ} (hp : 0 < p) (s s' : LoopState) (h : ecef2lla_body p z s = .ok s')
    (hN : s'.N = s.N) (hA : s'.alt = s.alt) :
    s.N = NN s'.lat ∧ p = (NN s'.lat + s.alt) * Real.cos s'.lat
      ∧ z = (NN s'.lat * (1 - e ^ 2) + s.alt) * Real.sin s'.lat := by
  by_cases h0 : s.N * (1 - e ^ 2) + s.alt = 0
  · simp [ecef2lla_body, h0] at h
  by_cases h1 : 0 < 1 - (e * (z / (s.N * (1 - e ^ 2) + s.alt))) ^ 2
  · rw [body_ok hp s rfl h0 h1] at h
    injection h with h
    subst h
    simp only at hN hA ⊢
    have hc := p_div_cos hp (W z s.N (s.N * (1 - e ^ 2) + s.alt))
    set D := s.N * (1 - e ^ 2) + s.alt with hD
    set w := W z s.N D with hw
    set t := Real.arctan (w / p) with ht
    have hcos : 0 < Real.cos t := Real.cos_arctan_pos _
    have hRp : R p w = s.N + s.alt := by linarith
    have hp' : p = (s.N + s.alt) * Real.cos t := by
      rw [← hRp, ← hc]; field_simp
    have hpos : 0 < s.N + s.alt := by rw [← hRp]; exact Real.sqrt_pos.2 (by positivity)
    have htan : Real.tan t = w / p := Real.tan_arctan _
    have hsin : w = (s.N + s.alt) * Real.sin t := by
      rw [Real.tan_eq_sin_div_cos, div_eq_div_iff hcos.ne' hp.ne'] at htan
      rw [hp'] at htan
      apply mul_right_cancel₀ hcos.ne'
      linarith
    have hzD : z / D = Real.sin t := by
      have : w = (z / D) * (s.N + s.alt) := by
        rw [hw, W]
        have : z = (z / D) * D := by field_simp
        calc z + e ^ 2 * s.N * (z / D) = (z / D) * D + e ^ 2 * s.N * (z / D) := by rw [← this]
          _ = _ := by rw [hD]; ring
      rw [hsin, mul_comm] at this
      exact (mul_right_cancel₀ hpos.ne' this).symm
    have hNN : s.N = NN t := by
      rw [← hN, SN, hzD]; rfl
    refine ⟨hNN, by rw [← hNN]; exact hp', ?_⟩
    rw [← hNN, ← hzD, ← hD]
    field_simp
  · exfalso
    unfold ecef2lla_body at h
    rw [if_neg h0] at h
    simp only at h
    rcases lt_or_eq_of_le (not_lt.1 h1) with h2 | h2
    · rw [if_pos h2] at h; cases h
    · rw [if_neg h2.not_lt, if_pos (by rw [h2, Real.sqrt_zero])] at h; cases h

/-! ## `lla2ecef` -/

theorem above {alt t : ℝ} (h : -6335439 ≤ alt) : 0 < NN t * (1 - e ^ 2) + alt := by
  have h1 := (NN_bounds t).1
  have h2 : e ^ 2 < 0.006694380005 := by rw [e_sq]; unfold a b; norm_num
  have ha : a = 6378137 := by unfold a; norm_num
  have : 6378137 * (1 - 0.006694380005) < NN t * (1 - e ^ 2) := by
    rw [ha] at h1
    exact mul_lt_mul' h1 (by linarith) (by norm_num) (NN_pos t)
  linarith

theorem len_eq (v : Vec) : len v = R (Real.sqrt (v 0 ^ 2 + v 1 ^ 2)) (v 2) := by
  unfold len R
  rw [Real.sq_sqrt (by positivity)]

theorem lla2ecef_form (lat lon alt : ℝ) : lla2ecef ![lat, lon, alt] =
    ![(NN (lat * Real.pi / 180) + alt) * Real.cos (lat * Real.pi / 180) * Real.cos (lon * Real.pi / 180),
      (NN (lat * Real.pi / 180) + alt) * Real.cos (lat * Real.pi / 180) * Real.sin (lon * Real.pi / 180),
      (NN (lat * Real.pi / 180) * (1 - e ^ 2) + alt) * Real.sin (lat * Real.pi / 180)] := rfl

theorem lla2ecef_z (lat lon alt : ℝ) : lla2ecef ![lat, lon, alt] 2
    = (NN (lat * Real.pi / 180) * (1 - e ^ 2) + alt) * Real.sin (lat * Real.pi / 180) := rfl

theorem lla2ecef_p {lat lon alt : ℝ}
    (ht : -(Real.pi / 2) < lat * Real.pi / 180 ∧ lat * Real.pi / 180 < Real.pi / 2)
    (hh : 0 < NN (lat * Real.pi / 180) * (1 - e ^ 2) + alt) :
    Real.sqrt (lla2ecef ![lat, lon, alt] 0 ^ 2 + lla2ecef ![lat, lon, alt] 1 ^ 2)
      = (NN (lat * Real.pi / 180) + alt) * Real.cos (lat * Real.pi / 180) := by
  rw [lla2ecef_form]
  simp only [cons_val_zero, cons_val_one]
  rw [show ∀ k l : ℝ, (k * Real.cos l) ^ 2 + (k * Real.sin l) ^ 2 = k ^ 2 from fun k l => by
    have := Real.sin_sq_add_cos_sq l; linear_combination k ^ 2 * this]
  exact Real.sqrt_sq (mul_pos (sum_pos hh) (cos_pos' ht)).le

/-! ## Off the polar axis -/

theorem off_axis {p l : ℝ} (hp : 0 < p) (hl : -Real.pi < l ∧ l ≤ Real.pi) (z tol : ℝ) :
    ecef2lla ![p * Real.cos l, p * Real.sin l, z] tol =
      match ecef2lla_loop p z tol with
      | none => none
      | some (.error err) => some (.error err)
      | some (.ok s) => some (.ok ![rad2deg s.lat, rad2deg l, s.alt]) := by
  have hs : Real.sqrt ((p * Real.cos l) ^ 2 + (p * Real.sin l) ^ 2) = p := by
    rw [show (p * Real.cos l) ^ 2 + (p * Real.sin l) ^ 2 = p ^ 2 by
      have := Real.sin_sq_add_cos_sq l; linear_combination p ^ 2 * this, Real.sqrt_sq hp.le]
  have hne : ¬ (p * Real.cos l = 0 ∧ p * Real.sin l = 0) := by
    rintro ⟨h1, h2⟩
    rw [h1, h2] at hs
    simp at hs
    linarith
  unfold ecef2lla
  simp only [cons_val_zero, cons_val_one, cons_val, hne, if_false, hs, atan2_polar hp hl.1 hl.2]
  rcases ecef2lla_loop p z tol with _ | _ | _ <;> rfl

theorem polar_form (x y : ℝ) (h : ¬ (x = 0 ∧ y = 0)) : ∃ p l, 0 < p ∧ (-Real.pi < l ∧ l ≤ Real.pi)
    ∧ x = p * Real.cos l ∧ y = p * Real.sin l ∧ p = Real.sqrt (x ^ 2 + y ^ 2) ∧ l = atan2 y x := by
  refine ⟨Real.sqrt (x ^ 2 + y ^ 2), atan2 y x, ?_, atan2_range y x, (atan2_cos y x).symm, (atan2_sin y x).symm,
    rfl, rfl⟩
  apply Real.sqrt_pos.2
  by_contra hn
  apply h
  constructor <;> nlinarith [sq_nonneg x, sq_nonneg y]

/-! ## Accuracy -/

section
variable {t h : ℝ} (ht : -(Real.pi / 2) < t ∧ t < Real.pi / 2) (hh : |h| ≤ 100000)
include ht hh

omit ht in
theorem D_bounds : 0.9776 * a ≤ NN t * (1 - e ^ 2) + h ∧ 6235000 ≤ NN t * (1 - e ^ 2) + h := by
  have h1 := NN_bounds t
  have h2 := e_sq_lt
  have h3 := abs_le.1 hh
  have : a * 0.9933056 ≤ NN t * (1 - e ^ 2) := by
    apply mul_le_mul h1.1 (by linarith) (by norm_num) (NN_pos t).le
  unfold a at *
  constructor <;> linarith

theorem R_ge : NN t * (1 - e ^ 2) + h ≤ R ((NN t + h) * Real.cos t) ((NN t * (1 - e ^ 2) + h) * Real.sin t) := by
  have h1 := Real.sin_sq_add_cos_sq t
  have h2 := (D_bounds (t := t) hh).2
  have h3 := NN_pos t
  have h4 := e_sq_gt
  unfold R
  apply Real.le_sqrt_of_sq_le
  have h5 : (NN t * (1 - e ^ 2) + h) ^ 2 ≤ (NN t + h) ^ 2 := by
    apply pow_le_pow_left₀ (by linarith); nlinarith
  have h6 := mul_le_mul_of_nonneg_right h5 (sq_nonneg (Real.cos t))
  nlinarith

omit ht in
theorem sin_true : |(NN t * (1 - e ^ 2) + h) * Real.sin t / (NN t * (1 - e ^ 2) + h)| ≤ 1 := by
  rw [true_sin (by have := (D_bounds (t := t) hh).2; linarith)]
  exact Real.abs_sin_le_one t

omit ht in
theorem D_first : |(NN t * (1 - e ^ 2) + h) - a * (1 - e ^ 2)| ≤ 0.0034 * a * (1 - e ^ 2) + |h| := by
  have h1 := NN_bounds t
  have h2 := e_sq_lt
  have e1 : (NN t * (1 - e ^ 2) + h) - a * (1 - e ^ 2) = (NN t - a) * (1 - e ^ 2) + h := by ring
  rw [e1]
  refine (abs_add_le _ _).trans ?_
  rw [abs_mul, abs_of_nonneg (show 0 ≤ NN t - a by linarith), abs_of_nonneg (show 0 ≤ 1 - e ^ 2 by linarith)]
  have := mul_le_mul_of_nonneg_right (show NN t - a ≤ 0.0034 * a by linarith) (show 0 ≤ 1 - e ^ 2 by linarith)
  linarith

omit ht in
/-- First round: the sine. -/
theorem sin_first {σ : ℝ} (hσ : |Real.sin t| ≤ σ) :
    a * |(NN t * (1 - e ^ 2) + h) * Real.sin t / (NN t * (1 - e ^ 2) + h)
      - (NN t * (1 - e ^ 2) + h) * Real.sin t / (a * (1 - e ^ 2))| ≤ σ * (21686 + 1.00674 * |h|) := by
  have hD := (D_bounds (t := t) hh).2
  have ha := a_pos
  have hE := e_sq_lt
  have hE0 := e_sq_gt
  have h1 := D_first (t := t) hh
  have hσ0 : 0 ≤ σ := (abs_nonneg _).trans hσ
  have hd : 0 < a * (1 - e ^ 2) := mul_pos ha (by linarith)
  have h2 := s_lip (z := (NN t * (1 - e ^ 2) + h) * Real.sin t) (D := NN t * (1 - e ^ 2) + h) (σ := σ)
    hd (by linarith) le_rfl (by rw [true_sin (by linarith)]; exact hσ)
  calc _ ≤ a * (σ / (a * (1 - e ^ 2)) * |(NN t * (1 - e ^ 2) + h) - a * (1 - e ^ 2)|) := by gcongr
    _ ≤ a * (σ / (a * (1 - e ^ 2)) * (0.0034 * a * (1 - e ^ 2) + |h|)) := by gcongr
    _ = σ * (0.0034 * a + |h| / (1 - e ^ 2)) := by
        have : 1 - e ^ 2 ≠ 0 := by linarith
        field_simp
    _ ≤ σ * (21686 + 1.00674 * |h|) := by
        apply mul_le_mul_of_nonneg_left _ hσ0
        have h3 : |h| / (1 - e ^ 2) ≤ 1.00674 * |h| := by
          rw [div_le_iff₀ (by linarith)]
          have := abs_nonneg h
          nlinarith
        have : 0.0034 * a ≤ 21686 := by unfold a; norm_num
        linarith

omit ht in
/-- First round: the tangent. -/
theorem W_first {σ : ℝ} (hσ : |Real.sin t| ≤ σ) :
    |W ((NN t * (1 - e ^ 2) + h) * Real.sin t) a (a * (1 - e ^ 2))
      - W ((NN t * (1 - e ^ 2) + h) * Real.sin t) (NN t) (NN t * (1 - e ^ 2) + h)| ≤ σ * (0.00674 * |h|) := by
  have hD := (D_bounds (t := t) hh).2
  have ha := a_pos
  have hE := e_sq_lt
  have hE0 := e_sq_gt
  have hD' : 0 < NN t * (1 - e ^ 2) + h := by linarith
  have hE1 : 0 < 1 - e ^ 2 := by linarith
  have e1 : W ((NN t * (1 - e ^ 2) + h) * Real.sin t) a (a * (1 - e ^ 2))
      - W ((NN t * (1 - e ^ 2) + h) * Real.sin t) (NN t) (NN t * (1 - e ^ 2) + h)
      = Real.sin t * (e ^ 2 / (1 - e ^ 2) * h) := by
    unfold W
    field_simp
    ring
  rw [e1, abs_mul, abs_mul, abs_of_nonneg (show 0 ≤ e ^ 2 / (1 - e ^ 2) by positivity)]
  apply mul_le_mul hσ _ (by positivity) ((abs_nonneg _).trans hσ)
  apply mul_le_mul_of_nonneg_right _ (abs_nonneg h)
  rw [div_le_iff₀ hE1]; linarith

omit ht in
theorem sin_first_le : |(NN t * (1 - e ^ 2) + h) * Real.sin t / (a * (1 - e ^ 2))| ≤ 1.1 := by
  have h1 := sin_first (t := t) hh (Real.abs_sin_le_one t)
  have h2 := sin_true (t := t) hh
  have ha : a = 6378137 := by unfold a; norm_num
  generalize (NN t * (1 - e ^ 2) + h) * Real.sin t / (NN t * (1 - e ^ 2) + h) = u at *
  generalize (NN t * (1 - e ^ 2) + h) * Real.sin t / (a * (1 - e ^ 2)) = v at *
  have h3 : |v| ≤ |u| + |u - v| := by
    have := abs_sub_abs_le_abs_sub v u
    rw [abs_sub_comm v u] at this
    linarith
  rw [ha] at h1
  linarith

/-- One more round, given bounds on the errors. -/
theorem next_errors {N' D' : ℝ} (i1 : |N' - NN t| ≤ 163 + 0.0076 * |h|)
    (i2 : |D' - (NN t * (1 - e ^ 2) + h)| ≤ 1.1 + 0.0068 * |h|) :
    |SN ((NN t * (1 - e ^ 2) + h) * Real.sin t) D' - NN t| ≤ 0.009 + 0.00006 * |h|
    ∧ |W ((NN t * (1 - e ^ 2) + h) * Real.sin t) N' D'
        - W ((NN t * (1 - e ^ 2) + h) * Real.sin t) (NN t) (NN t * (1 - e ^ 2) + h)| ≤ 1.099 + 0.0001 * |h|
    ∧ 0 < D' ∧ 0 < N' := by
  have hD := D_bounds (t := t) hh
  have ha : a = 6378137 := by unfold a; norm_num
  have hE := e_sq_lt
  have hE0 := e_sq_gt
  have hNN := NN_bounds t
  have hh0 := abs_nonneg h
  have hpos : 0 < NN t * (1 - e ^ 2) + h := by linarith
  have hSN := true_SN ht hpos
  have hst := sin_true (t := t) hh
  have hD' : 6234000 ≤ D' := by
    have := abs_le.1 i2; linarith
  have hN' : 6370000 ≤ N' ∧ N' ≤ 1.0036 * a := by
    have := abs_le.1 i1; constructor <;> linarith
  have s1 := s_lip (z := (NN t * (1 - e ^ 2) + h) * Real.sin t) (D := NN t * (1 - e ^ 2) + h) (D' := D')
    (d := 6234000) (by norm_num) hpos hD' hst
  have s2 : a * |(NN t * (1 - e ^ 2) + h) * Real.sin t / (NN t * (1 - e ^ 2) + h)
      - (NN t * (1 - e ^ 2) + h) * Real.sin t / D'| ≤ 1.0232 * (1.1 + 0.0068 * |h|) := by
    rw [abs_sub_comm] at i2
    have : a * |(NN t * (1 - e ^ 2) + h) * Real.sin t / (NN t * (1 - e ^ 2) + h)
        - (NN t * (1 - e ^ 2) + h) * Real.sin t / D'| ≤ a * (1 / 6234000 * (1.1 + 0.0068 * |h|)) := by
      apply mul_le_mul_of_nonneg_left _ a_pos.le
      exact s1.trans (by gcongr)
    rw [ha] at this ⊢
    linarith
  have s3 : |(NN t * (1 - e ^ 2) + h) * Real.sin t / D'| ≤ 1.1 := by
    generalize (NN t * (1 - e ^ 2) + h) * Real.sin t / (NN t * (1 - e ^ 2) + h) = u at *
    generalize (NN t * (1 - e ^ 2) + h) * Real.sin t / D' = v at *
    have h3 : |v| ≤ |u| + |u - v| := by
      have := abs_sub_abs_le_abs_sub v u
      rw [abs_sub_comm v u] at this
      linarith
    rw [ha] at s2
    linarith
  have n1 := N_lip (hst.trans (by norm_num)) s3
  change |SN _ _ - SN _ _| ≤ _ at n1
  rw [hSN] at n1
  have w1 := W_lip (z := (NN t * (1 - e ^ 2) + h) * Real.sin t) (N := N') (N' := NN t) (D := D')
    (D' := NN t * (1 - e ^ 2) + h) (ν := 1.0036 * a) (by rw [abs_of_pos (by linarith)]; exact hN'.2) hst
  rw [abs_sub_comm (_ / D')] at w1
  generalize |(NN t * (1 - e ^ 2) + h) * Real.sin t / (NN t * (1 - e ^ 2) + h)
      - (NN t * (1 - e ^ 2) + h) * Real.sin t / D'| = Δ at *
  refine ⟨?_, ?_, by linarith, by linarith⟩
  · rw [abs_sub_comm]; nlinarith
  · nlinarith

/-- What holds after the first round and is kept: the errors of `N` and `D`. -/
theorem errors (n : ℕ) :
    |(xs ((NN t + h) * Real.cos t) ((NN t * (1 - e ^ 2) + h) * Real.sin t) (n + 1)).1 - NN t| ≤ 163 + 0.0076 * |h|
    ∧ |(xs ((NN t + h) * Real.cos t) ((NN t * (1 - e ^ 2) + h) * Real.sin t) (n + 1)).2 - (NN t * (1 - e ^ 2) + h)|
      ≤ 1.1 + 0.0068 * |h| := by
  have hD := D_bounds (t := t) hh
  have ha : a = 6378137 := by unfold a; norm_num
  have hE := e_sq_lt
  have hE0 := e_sq_gt
  have hNN := NN_bounds t
  have hh0 := abs_nonneg h
  have hpos : 0 < NN t * (1 - e ^ 2) + h := by linarith
  have hSN := true_SN ht hpos
  have hst := sin_true (t := t) hh
  have h0 : 0 ≤ e ^ 2 := sq_nonneg e
  induction n with
  | zero =>
    have s1 := sin_first (t := t) hh (Real.abs_sin_le_one t)
    have w1 := W_first (t := t) hh (Real.abs_sin_le_one t)
    have n1 := N_lip (hst.trans (by norm_num)) (sin_first_le (t := t) hh)
    have r1 := R_lip ((NN t + h) * Real.cos t) (W ((NN t * (1 - e ^ 2) + h) * Real.sin t) a (a * (1 - e ^ 2)))
      (W ((NN t * (1 - e ^ 2) + h) * Real.sin t) (NN t) (NN t * (1 - e ^ 2) + h))
    have f1 := congrArg Prod.snd (true_fixed ht hpos)
    simp only [stepND] at f1
    change |SN _ _ - SN _ _| ≤ _ at n1
    rw [hSN] at f1 n1
    simp only [xs, stepND]
    generalize hz : (NN t * (1 - e ^ 2) + h) * Real.sin t = z at *
    generalize hp : (NN t + h) * Real.cos t = p at *
    have n2 : |SN z (a * (1 - e ^ 2)) - NN t| ≤ 162.7 + 0.00756 * |h| := by
      rw [abs_sub_comm]; nlinarith
    refine ⟨by linarith, ?_⟩
    have e1 : R p (W z a (a * (1 - e ^ 2))) - e ^ 2 * SN z (a * (1 - e ^ 2)) - (NN t * (1 - e ^ 2) + h)
        = (R p (W z a (a * (1 - e ^ 2))) - R p (W z (NN t) (NN t * (1 - e ^ 2) + h)))
          - e ^ 2 * (SN z (a * (1 - e ^ 2)) - NN t) := by linear_combination f1
    rw [e1]
    refine (abs_sub _ _).trans ?_
    rw [abs_mul, abs_of_nonneg h0]
    have := mul_le_mul hE.le n2 (abs_nonneg _) (by norm_num)
    linarith
  | succ n ih =>
    obtain ⟨n1, w1, -, -⟩ := next_errors ht hh ih.1 ih.2
    have r1 := R_lip ((NN t + h) * Real.cos t)
      (W ((NN t * (1 - e ^ 2) + h) * Real.sin t)
        (xs ((NN t + h) * Real.cos t) ((NN t * (1 - e ^ 2) + h) * Real.sin t) (n + 1)).1
        (xs ((NN t + h) * Real.cos t) ((NN t * (1 - e ^ 2) + h) * Real.sin t) (n + 1)).2)
      (W ((NN t * (1 - e ^ 2) + h) * Real.sin t) (NN t) (NN t * (1 - e ^ 2) + h))
    have f1 := congrArg Prod.snd (true_fixed ht hpos)
    simp only [stepND] at f1
    rw [hSN] at f1
    change |SN _ _ - _| ≤ _ ∧ |R _ (W _ _ _) - _ - _| ≤ _
    clear ih
    generalize (NN t * (1 - e ^ 2) + h) * Real.sin t = z at *
    generalize (NN t + h) * Real.cos t = p at *
    generalize (xs p z (n + 1)).1 = N' at *
    generalize (xs p z (n + 1)).2 = D' at *
    refine ⟨by linarith, ?_⟩
    have e1 : R p (W z N' D') - e ^ 2 * SN z D' - (NN t * (1 - e ^ 2) + h)
        = (R p (W z N' D') - R p (W z (NN t) (NN t * (1 - e ^ 2) + h))) - e ^ 2 * (SN z D' - NN t) := by
      linear_combination f1
    rw [e1]
    refine (abs_sub _ _).trans ?_
    rw [abs_mul, abs_of_nonneg h0]
    have := mul_le_mul hE.le n1 (abs_nonneg _) (by norm_num)
    linarith

/-- The errors of latitude and altitude after two rounds or more. -/
theorem accuracy_later (n : ℕ) :
    |lats ((NN t + h) * Real.cos t) ((NN t * (1 - e ^ 2) + h) * Real.sin t) (n + 2) - t|
      ≤ (1.099 + 0.0001 * |h|) / 6235000
    ∧ |(xs ((NN t + h) * Real.cos t) ((NN t * (1 - e ^ 2) + h) * Real.sin t) (n + 2)).2
        - (xs ((NN t + h) * Real.cos t) ((NN t * (1 - e ^ 2) + h) * Real.sin t) (n + 2)).1 * (1 - e ^ 2) - h|
      ≤ 1.11 + 0.00017 * |h| := by
  obtain ⟨i1, i2⟩ := errors ht hh n
  obtain ⟨n1, w1, hD', hN'⟩ := next_errors ht hh i1 i2
  have hD := D_bounds (t := t) hh
  have hpos : 0 < NN t * (1 - e ^ 2) + h := by linarith
  have hp : 0 < (NN t + h) * Real.cos t := mul_pos (sum_pos hpos) (cos_pos' ht)
  have hR := R_ge ht hh
  have hlat := true_lat ht hpos
  have hSN := true_SN ht hpos
  have f1 := congrArg Prod.snd (true_fixed ht hpos)
  simp only [stepND] at f1
  rw [hSN] at f1
  have r1 := R_lip ((NN t + h) * Real.cos t)
      (W ((NN t * (1 - e ^ 2) + h) * Real.sin t)
        (xs ((NN t + h) * Real.cos t) ((NN t * (1 - e ^ 2) + h) * Real.sin t) (n + 1)).1
        (xs ((NN t + h) * Real.cos t) ((NN t * (1 - e ^ 2) + h) * Real.sin t) (n + 1)).2)
      (W ((NN t * (1 - e ^ 2) + h) * Real.sin t) (NN t) (NN t * (1 - e ^ 2) + h))
  have hN0 := (NN_pos t).le
  change |Real.arctan _ - t| ≤ _ ∧ |R _ (W _ _ _) - _ * SN _ _ - SN _ _ * _ - _| ≤ _
  generalize (NN t * (1 - e ^ 2) + h) * Real.sin t = z at *
  generalize (NN t + h) * Real.cos t = p at *
  generalize (xs p z (n + 1)).1 = N' at *
  generalize (xs p z (n + 1)).2 = D' at *
  constructor
  · have hl := lat_lip hp (z := z) hN'.le hD' hN0 hpos
    rw [hlat] at hl
    refine hl.trans ?_
    apply div_le_div₀ _ w1 (by norm_num) (hD.2.trans hR)
    have := abs_nonneg h
    linarith
  · have e1 : R p (W z N' D') - e ^ 2 * SN z D' - SN z D' * (1 - e ^ 2) - h
        = (R p (W z N' D') - R p (W z (NN t) (NN t * (1 - e ^ 2) + h))) - (SN z D' - NN t) := by
      linear_combination f1
    rw [e1]
    refine (abs_sub _ _).trans ?_
    have := abs_nonneg h
    linarith

/-- The errors when the loop stops after one round. -/
theorem accuracy_first
    (hs : |lats ((NN t + h) * Real.cos t) ((NN t * (1 - e ^ 2) + h) * Real.sin t) 1| ≤ 1e-6) :
    |lats ((NN t + h) * Real.cos t) ((NN t * (1 - e ^ 2) + h) * Real.sin t) 1 - t|
      ≤ (1.099 + 0.0001 * |h|) / 6235000
    ∧ |(xs ((NN t + h) * Real.cos t) ((NN t * (1 - e ^ 2) + h) * Real.sin t) 1).2
        - (xs ((NN t + h) * Real.cos t) ((NN t * (1 - e ^ 2) + h) * Real.sin t) 1).1 * (1 - e ^ 2) - h|
      ≤ 1.11 + 0.00017 * |h| := by
  have hD := D_bounds (t := t) hh
  have ha : a = 6378137 := by unfold a; norm_num
  have ha0 := a_pos
  have hE := e_sq_lt
  have hE0 := e_sq_gt
  have hNN := NN_bounds t
  have hh0 := abs_nonneg h
  have hpos : 0 < NN t * (1 - e ^ 2) + h := by linarith
  have hp : 0 < (NN t + h) * Real.cos t := mul_pos (sum_pos hpos) (cos_pos' ht)
  have hD0 : 0 < a * (1 - e ^ 2) := mul_pos ha0 (by linarith)
  have hR := R_ge ht hh
  have hlat := true_lat ht hpos
  have hSN := true_SN ht hpos
  have hW := true_W ht hpos
  have hRR := true_R ht hpos
  have hst := sin_true (t := t) hh
  have hsin := true_sin (t := t) hpos
  have f1 := congrArg Prod.snd (true_fixed ht hpos)
  simp only [stepND] at f1
  rw [hSN] at f1
  have w0 := W_first (t := t) hh (Real.abs_sin_le_one t)
  have r1 := R_lip ((NN t + h) * Real.cos t) (W ((NN t * (1 - e ^ 2) + h) * Real.sin t) a (a * (1 - e ^ 2)))
      (W ((NN t * (1 - e ^ 2) + h) * Real.sin t) (NN t) (NN t * (1 - e ^ 2) + h))
  have hN0 := (NN_pos t).le
  have n1 := N_lip (hst.trans (by norm_num)) (sin_first_le (t := t) hh)
  change |SN _ _ - SN _ _| ≤ _ at n1
  rw [hSN] at n1
  have w2 := fun {σ} => W_first (t := t) hh (σ := σ)
  have s2 := fun {σ} => sin_first (t := t) hh (σ := σ)
  have hsmall : |Real.sin t| ≤ 1.1e-6 := by
    have hc := p_div_cos hp (W ((NN t * (1 - e ^ 2) + h) * Real.sin t) a (a * (1 - e ^ 2)))
    have hge := W_ge (z := (NN t * (1 - e ^ 2) + h) * Real.sin t) ha0.le hD0
    rw [← hsin]
    change |Real.arctan _| ≤ _ at hs
    simp only [xs] at hs
    rw [← hW] at hRR
    generalize (NN t * (1 - e ^ 2) + h) * Real.sin t = z at *
    generalize (NN t + h) * Real.cos t = p at *
    set w := W z a (a * (1 - e ^ 2))
    have hcos : 0 < Real.cos (Real.arctan (w / p)) := Real.cos_arctan_pos _
    have hw : w = R p w * Real.sin (Real.arctan (w / p)) := by
      have htan : Real.tan (Real.arctan (w / p)) = w / p := Real.tan_arctan _
      rw [Real.tan_eq_sin_div_cos, div_eq_div_iff hcos.ne' hp.ne'] at htan
      rw [← hc]
      field_simp
      linarith
    have hRw : R p w ≤ 1.02 * a := by
      have h1 := abs_le.1 (r1.trans w0)
      have h2 := abs_le.1 hh
      rw [hRR] at h1
      linarith
    have hRw0 : 0 ≤ R p w := Real.sqrt_nonneg _
    have h3 : |w| ≤ 1.02 * a * 1e-6 := by
      rw [hw, abs_mul, abs_of_nonneg hRw0]
      exact mul_le_mul hRw (Real.abs_sin_le_abs.trans hs) (abs_nonneg _) (by positivity)
    rw [abs_div, abs_of_pos hpos, div_le_iff₀ hpos]
    linarith
  have w3 := w2 hsmall
  have s3 := s2 hsmall
  change |Real.arctan _ - t| ≤ _ ∧ |R _ (W _ _ _) - _ * SN _ _ - SN _ _ * _ - _| ≤ _
  simp only [xs]
  clear w2 s2 hRR
  generalize (NN t * (1 - e ^ 2) + h) * Real.sin t = z at *
  generalize (NN t + h) * Real.cos t = p at *
  constructor
  · have hl := lat_lip hp (z := z) ha0.le hD0 hN0 hpos
    rw [hlat] at hl
    refine hl.trans ?_
    apply div_le_div₀ _ _ (by norm_num) (hD.2.trans hR)
    · linarith
    · linarith
  · have e1 : R p (W z a (a * (1 - e ^ 2))) - e ^ 2 * SN z (a * (1 - e ^ 2)) - SN z (a * (1 - e ^ 2)) * (1 - e ^ 2) - h
        = (R p (W z a (a * (1 - e ^ 2))) - R p (W z (NN t) (NN t * (1 - e ^ 2) + h)))
          + (NN t - SN z (a * (1 - e ^ 2))) := by
      linear_combination f1
    rw [e1]
    refine (abs_add_le _ _).trans ?_
    nlinarith

end

/-! ## Far away -/

theorem raises_far {p z tol : ℝ} (hz : 7.75e7 ≤ |z|) (ht : tol ≤ 90) :
    ecef2lla_loop p z tol = some (.error .valueError) := by
  have ha : a = 6378137 := by unfold a; norm_num
  have hE := e_sq_lt
  have hE0 := e_sq_gt
  have hne : a * (1 - e ^ 2) ≠ 0 := (mul_pos a_pos (by linarith)).ne'
  have hneg : 1 - (e * (z / (a * (1 - e ^ 2)))) ^ 2 < 0 := by
    have h1 : (7.75e7 : ℝ) ^ 2 ≤ z ^ 2 := by
      rw [← sq_abs z]; exact pow_le_pow_left₀ (by norm_num) hz 2
    have h2 : (a * (1 - e ^ 2)) ^ 2 ≤ 6335441 ^ 2 := by
      apply pow_le_pow_left₀ (mul_pos a_pos (by linarith)).le
      rw [ha]; linarith
    have h3 : (a * (1 - e ^ 2)) ^ 2 < e ^ 2 * z ^ 2 := by
      calc (a * (1 - e ^ 2)) ^ 2 ≤ 6335441 ^ 2 := h2
        _ < 0.0066943 * (7.75e7 : ℝ) ^ 2 := by norm_num
        _ ≤ e ^ 2 * z ^ 2 := mul_le_mul hE0.le h1 (by norm_num) (by positivity)
    have hpos : 0 < (a * (1 - e ^ 2)) ^ 2 := by positivity
    have : 1 < (e * (z / (a * (1 - e ^ 2)))) ^ 2 := by
      rw [← mul_div_assoc, div_pow, one_lt_div hpos, mul_pow e z]; exact h3
    linarith
  have h1 : ecef2lla_after p z 1 = .error .valueError := by
    simp only [ecef2lla_after, ecef2lla_init, ecef2lla_body, add_zero]
    rw [if_neg hne, if_pos hneg]
  rw [← h1]
  apply loop_eq
  · simp [ecef2lla_leaves, h1]
  · intro m hm
    obtain rfl : m = 0 := by omega
    exact not_leaves_zero p z ht

/-! ## Stopping early -/

section
variable {z : ℝ} (hz : z = 6200000)
include hz

theorem early_bounds : 1.003219 * a ≤ SN z (a * (1 - e ^ 2)) ∧ SN z (a * (1 - e ^ 2)) ≤ 1.0034 * a
    ∧ 6241000 ≤ z / (1 - e ^ 2) ∧ z / (1 - e ^ 2) ≤ 6241800 := by
  have ha : a = 6378137 := by unfold a; norm_num
  have hE := e_sq_lt
  have hE0 := e_sq_gt
  have hs : 0.9786 ≤ z / (a * (1 - e ^ 2)) ∧ z / (a * (1 - e ^ 2)) ≤ 0.9787 := by
    rw [ha, hz]
    constructor
    · rw [le_div_iff₀ (by linarith)]; linarith
    · rw [div_le_iff₀ (by linarith)]; linarith
  have hq : 0.0064108 ≤ (e * (z / (a * (1 - e ^ 2)))) ^ 2 ∧ (e * (z / (a * (1 - e ^ 2)))) ^ 2 ≤ 0.006413 := by
    rw [mul_pow]
    generalize z / (a * (1 - e ^ 2)) = u at *
    have h1 : (0.9786 : ℝ) ^ 2 ≤ u ^ 2 := pow_le_pow_left₀ (by norm_num) hs.1 2
    have h2 : u ^ 2 ≤ 0.9787 ^ 2 := pow_le_pow_left₀ (by linarith) hs.2 2
    constructor <;> nlinarith
  have hu : Real.sqrt (1 - (e * (z / (a * (1 - e ^ 2)))) ^ 2) ≤ 0.99679 := by
    rw [Real.sqrt_le_iff]; constructor
    · norm_num
    · nlinarith
  have hl : 0.99678 ≤ Real.sqrt (1 - (e * (z / (a * (1 - e ^ 2)))) ^ 2) := by
    apply Real.le_sqrt_of_sq_le; nlinarith
  refine ⟨?_, ?_, ?_, ?_⟩
  · unfold SN; rw [le_div_iff₀ (by linarith)]; nlinarith [a_pos]
  · unfold SN; rw [div_le_iff₀ (by linarith)]; nlinarith [a_pos]
  · rw [le_div_iff₀ (by linarith), hz]; linarith
  · rw [div_le_iff₀ (by linarith), hz]; linarith

/-- With `p` such that the first round ends with altitude zero, the second finds the same latitude. -/
theorem stops_early : ∃ p : ℝ, 0 < p ∧ ∀ tol : ℝ, 0 < tol → tol ≤ 1 / 2 → ∃ t h : ℝ,
    (∃ prev N, ecef2lla_loop p z tol = some (.ok ⟨t, prev, N, h⟩))
    ∧ (NN t + h) * Real.cos t = p ∧ z + 0.7 ≤ (NN t * (1 - e ^ 2) + h) * Real.sin t := by
  have ha : a = 6378137 := by unfold a; norm_num
  have ha0 := a_pos
  have hE := e_sq_lt
  have hE0 := e_sq_gt
  obtain ⟨b1, b2, b3, b4⟩ := early_bounds hz
  set N1 := SN z (a * (1 - e ^ 2)) with hN1
  set w := z / (1 - e ^ 2) with hw
  have hE1 : 0 < 1 - e ^ 2 := by linarith
  have hN1p : 0 < N1 := by linarith
  have hrad : 0 < N1 ^ 2 - w ^ 2 := by nlinarith
  refine ⟨Real.sqrt (N1 ^ 2 - w ^ 2), Real.sqrt_pos.2 hrad, fun tol ht0 ht1 => ?_⟩
  have hp : 0 < Real.sqrt (N1 ^ 2 - w ^ 2) := Real.sqrt_pos.2 hrad
  have hp2 : Real.sqrt (N1 ^ 2 - w ^ 2) ^ 2 = N1 ^ 2 - w ^ 2 := Real.sq_sqrt hrad.le
  generalize Real.sqrt (N1 ^ 2 - w ^ 2) = p at *
  have hRw : R p w = N1 := by
    unfold R; rw [hp2, sub_add_cancel, Real.sqrt_sq hN1p.le]
  have hr : a / 10 ≤ R p z := by
    have := abs_z_le p z
    rw [hz, abs_of_pos (by norm_num)] at this
    rw [hz]; linarith
  have hz12 : |z| ≤ 12 * a := by rw [hz, abs_of_pos (by norm_num)]; linarith
  have hW : ∀ c, c ≠ 0 → W z c (c * (1 - e ^ 2)) = w := by
    intro c hc; unfold W; rw [hw]; field_simp; ring
  have x1 : xs p z 1 = (N1, N1 * (1 - e ^ 2)) := by
    simp only [xs, stepND, hW a ha0.ne', hRw, ← hN1]
    congr 1; ring
  have l1 : lats p z 1 = Real.arctan (w / p) := by simp only [lats, xs, hW a ha0.ne']
  have l2 : lats p z 2 = Real.arctan (w / p) := by
    simp only [lats]; rw [x1, hW N1 hN1p.ne']
  have x2 : xs p z 2 = (SN z (N1 * (1 - e ^ 2)), N1 - e ^ 2 * SN z (N1 * (1 - e ^ 2))) := by
    change stepND p z (xs p z 1) = _
    rw [x1]; simp only [stepND, hW N1 hN1p.ne', hRw]
  set N2 := SN z (N1 * (1 - e ^ 2)) with hN2
  have hcw := p_div_cos hp w
  have hcos : 0 < Real.cos (Real.arctan (w / p)) := Real.cos_arctan_pos _
  rw [hRw] at hcw
  have hpc : p = N1 * Real.cos (Real.arctan (w / p)) := by rw [← hcw]; field_simp
  have hsin : Real.sin (Real.arctan (w / p)) = z / (N1 * (1 - e ^ 2)) := by
    have htan : Real.tan (Real.arctan (w / p)) = w / p := Real.tan_arctan _
    rw [Real.tan_eq_sin_div_cos, div_eq_div_iff hcos.ne' hp.ne'] at htan
    have h3 : Real.sin (Real.arctan (w / p)) * N1 = w := by
      apply mul_right_cancel₀ hcos.ne'
      linear_combination htan - Real.sin (Real.arctan (w / p)) * hpc
    rw [eq_div_iff (by positivity), ← mul_assoc, h3, hw]
    field_simp
  refine ⟨Real.arctan (w / p), N1 - N2, ⟨lats p z 1, N2, ?_⟩, ?_, ?_⟩
  · rw [loop_eq (n := 2), after_eq hp (xs_good hr hz12), l2, x2]
    · simp only [prevs]
      congr 3
      ring
    · rw [leaves_iff hp hr hz12]; simp only [prevs]; rw [l1, l2]; simpa using ht0
    · intro m hm
      rw [leaves_iff hp hr hz12]
      interval_cases m
      · simp only [lats, prevs]; norm_num; linarith
      · simp only [prevs]; rw [l1]; simp only [lats, sub_zero]
        have hpw : p ≤ w := by
          refine (le_abs_self p).trans (abs_le_of_sq_le_sq ?_ (by linarith)); nlinarith
        have : Real.arctan 1 ≤ Real.arctan (w / p) := by
          apply Real.arctan_mono; rw [le_div_iff₀ hp]; linarith
        rw [Real.arctan_one] at this
        have := Real.two_le_pi
        rw [abs_of_pos (by linarith)]
        linarith
  · have hNN : NN (Real.arctan (w / p)) = N2 := by
      unfold NN; rw [hsin]; rfl
    rw [hNN, add_sub_cancel]
    exact hpc.symm
  · have hNN : NN (Real.arctan (w / p)) = N2 := by
      unfold NN; rw [hsin]; rfl
    rw [hNN, hsin]
    have hs : 0.97 ≤ z / (N1 * (1 - e ^ 2)) ∧ z / (N1 * (1 - e ^ 2)) ≤ 0.97551 := by
      rw [div_mul_eq_div_div_swap, ← hw]
      constructor
      · rw [le_div_iff₀ hN1p]; linarith
      · rw [div_le_iff₀ hN1p]; linarith
    have hz' : z = N1 * (1 - e ^ 2) * (z / (N1 * (1 - e ^ 2))) := by field_simp
    have hN2le : N2 ≤ 1.003201 * a := by
      rw [hN2, SN]
      generalize z / (N1 * (1 - e ^ 2)) = u at *
      have hl : 0.99680935 ≤ Real.sqrt (1 - (e * u) ^ 2) := by
        apply Real.le_sqrt_of_sq_le
        rw [mul_pow]
        have h2 : u ^ 2 ≤ 0.97551 ^ 2 := pow_le_pow_left₀ (by linarith) hs.2 2
        nlinarith
      rw [div_le_iff₀ (by linarith)]
      nlinarith
    have hd : 114 ≤ N1 - N2 := by rw [ha] at b1 hN2le; linarith
    clear_value N2
    have e1 : (N2 * (1 - e ^ 2) + (N1 - N2)) * (z / (N1 * (1 - e ^ 2)))
        = z + e ^ 2 * (N1 - N2) * (z / (N1 * (1 - e ^ 2))) := by
      linear_combination -hz'
    rw [e1]
    generalize z / (N1 * (1 - e ^ 2)) = u at *
    have h5 : 0.0066943 * 114 ≤ e ^ 2 * (N1 - N2) := mul_le_mul hE0.le hd (by norm_num) (by positivity)
    nlinarith

end

theorem round2_error (x : ℝ) : |round2 x - x| ≤ 0.005 := by
  have h1 := Int.floor_le (100 * x)
  have h2 := Int.lt_floor_add_one (100 * x)
  unfold round2 roundHalfEven
  rw [abs_le]
  split_ifs <;> push_cast <;> constructor <;> linarith

end Dis.Geo
