import Verif.Proof.Coordinates
import Mathlib.Analysis.SpecialFunctions.Trigonometric.ArctanDeriv
import Mathlib.Analysis.Calculus.MeanValue
import Mathlib.Analysis.SpecificLimits.Basic

/-!
# The iteration of `ecef2lla`

In terms of `N` and the denominator `D = N (1 - e^2) + alt` of line 151, one round of the loop is the map
`(N, D) ↦ (SN z D, R p (W z N D) - e^2 SN z D)`. It contracts distances on a region that it
enters in its first round.
-/

namespace Dis.Geo

open WGS84

/-- Length of the normal for the sine `z / D`. -/
noncomputable def SN (z D : ℝ) : ℝ := a / Real.sqrt (1 - (e * (z / D)) ^ 2)

/-- `p` times the tangent of the next latitude. -/
noncomputable def W (z N D : ℝ) : ℝ := z + e ^ 2 * N * (z / D)

/-- `p` over the cosine of the latitude whose tangent is `w / p`. -/
noncomputable def R (p w : ℝ) : ℝ := Real.sqrt (p ^ 2 + w ^ 2)

/-- One round on `(N, D)`. -/
noncomputable def stepND (p z : ℝ) (x : ℝ × ℝ) : ℝ × ℝ := (SN z x.2, R p (W z x.1 x.2) - e ^ 2 * SN z x.2)

theorem p_div_cos {p : ℝ} (hp : 0 < p) (w : ℝ) : p / Real.cos (Real.arctan (w / p)) = R p w := by
  rw [Real.cos_arctan, R, one_div, div_inv_eq_mul]
  rw [← Real.sqrt_sq hp.le, ← Real.sqrt_mul (sq_nonneg _)]
  rw [Real.sqrt_sq hp.le]
  congr 1
  field_simp

theorem body_ok {p z : ℝ} (hp : 0 < p) (s : LoopState) {D : ℝ} (hD : s.N * (1 - e ^ 2) + s.alt = D)
    (h0 : D ≠ 0) (h1 : 0 < 1 - (e * (z / D)) ^ 2) :
    ecef2lla_body p z s
      = .ok ⟨Real.arctan (W z s.N D / p), s.lat, SN z D, R p (W z s.N D) - SN z D⟩ := by
  unfold ecef2lla_body
  rw [hD]
  have h2 : Real.sqrt (1 - (e * (z / D)) ^ 2) ≠ 0 := (Real.sqrt_pos.2 h1).ne'
  simp only [h0, if_false, not_lt.2 h1.le, h2]
  have hc := p_div_cos hp (W z s.N D)
  simp only [W] at hc ⊢
  rw [hc]
  rfl

/-! ## Lipschitz bounds -/

theorem R_lip (p w w' : ℝ) : |R p w - R p w'| ≤ |w - w'| := by
  have h1 : 0 ≤ p ^ 2 + w ^ 2 := by positivity
  have h2 : 0 ≤ p ^ 2 + w' ^ 2 := by positivity
  have s1 := Real.sq_sqrt h1
  have s2 := Real.sq_sqrt h2
  have n1 := Real.sqrt_nonneg (p ^ 2 + w ^ 2)
  have n2 := Real.sqrt_nonneg (p ^ 2 + w' ^ 2)
  unfold R
  generalize Real.sqrt (p ^ 2 + w ^ 2) = u at *
  generalize Real.sqrt (p ^ 2 + w' ^ 2) = v at *
  apply sq_le_sq.1
  have huv : p ^ 2 + w * w' ≤ u * v := by
    refine (le_abs_self _).trans (abs_le_of_sq_le_sq ?_ (by positivity))
    rw [mul_pow, s1, s2]
    nlinarith [sq_nonneg (p * (w - w'))]
  nlinarith

theorem s_lip {z D D' d σ : ℝ} (hd : 0 < d) (hD : 0 < D) (hD' : d ≤ D') (hs : |z / D| ≤ σ) :
    |z / D - z / D'| ≤ σ / d * |D - D'| := by
  have h' : 0 < D' := hd.trans_le hD'
  have e1 : z / D - z / D' = (z / D) * ((D' - D) / D') := by field_simp
  rw [e1, abs_mul, abs_div (D' - D), abs_of_pos h', abs_sub_comm D' D]
  have hσ : 0 ≤ σ := (abs_nonneg _).trans hs
  calc |z / D| * (|D - D'| / D') ≤ σ * (|D - D'| / d) := by
        apply mul_le_mul hs _ (by positivity) hσ
        exact div_le_div_of_nonneg_left (abs_nonneg _) hd hD'
    _ = σ / d * |D - D'| := by ring

/-- Bounds on the square root of line 153. -/
theorem root_bounds {s : ℝ} (hs : |s| ≤ 1.1) :
    0.9959 ≤ Real.sqrt (1 - (e * s) ^ 2) ∧ Real.sqrt (1 - (e * s) ^ 2) ≤ 1
      ∧ Real.sqrt (1 - (e * s) ^ 2) ^ 2 = 1 - e ^ 2 * s ^ 2 ∧ 0 < 1 - (e * s) ^ 2 := by
  have h1 := e_sq_lt
  have h2 := e_sq_gt
  have h3 : s ^ 2 ≤ 1.21 := by
    have := abs_le.1 hs
    nlinarith
  have h4 := sq_nonneg s
  rw [mul_pow]
  have h5 : 0.99185 ≤ 1 - e ^ 2 * s ^ 2 := by nlinarith
  refine ⟨?_, ?_, Real.sq_sqrt (by linarith), by linarith⟩
  · apply Real.le_sqrt_of_sq_le; linarith
  · rw [Real.sqrt_le_iff]; constructor <;> nlinarith

theorem N_lip {s s' : ℝ} (hs : |s| ≤ 1.1) (hs' : |s'| ≤ 1.1) :
    |a / Real.sqrt (1 - (e * s) ^ 2) - a / Real.sqrt (1 - (e * s') ^ 2)| ≤ 0.0075 * a * |s - s'| := by
  obtain ⟨l1, u1, q1, -⟩ := root_bounds hs
  obtain ⟨l2, u2, q2, -⟩ := root_bounds hs'
  have ha := a_pos
  have hE := e_sq_lt
  have hE' := e_sq_gt
  generalize Real.sqrt (1 - (e * s) ^ 2) = m at *
  generalize Real.sqrt (1 - (e * s') ^ 2) = m' at *
  generalize e ^ 2 = E at *
  have hm : 0 < m := by linarith
  have hm' : 0 < m' := by linarith
  have e1 : a / m - a / m' = a * ((m' - m) / (m * m')) := by field_simp
  rw [e1, abs_mul, abs_of_pos ha, abs_div, abs_of_pos (mul_pos hm hm'), mul_comm (0.0075 : ℝ), mul_assoc]
  apply mul_le_mul_of_nonneg_left _ ha.le
  rw [div_le_iff₀ (mul_pos hm hm')]
  have hd : |m' - m| * (m' + m) = E * (|s - s'| * |s + s'|) := by
    have : (m' - m) * (m' + m) = E * ((s - s') * (s + s')) := by nlinarith
    have h := congrArg abs this
    rwa [abs_mul, abs_mul, abs_mul, abs_of_pos (show 0 < m' + m by linarith),
      abs_of_pos (show 0 < E by linarith)] at h
  have hss : |s + s'| ≤ 2.2 := (abs_add_le s s').trans (by linarith)
  have hx := abs_nonneg (s - s')
  have hy := abs_nonneg (m' - m)
  have hz := abs_nonneg (s + s')
  have b1 : |s - s'| * |s + s'| ≤ 2.2 * |s - s'| := by nlinarith
  have b2 : E * (|s - s'| * |s + s'|) ≤ 0.0066944 * (2.2 * |s - s'|) := by
    apply mul_le_mul hE.le b1 (by positivity) (by norm_num)
  have b3 : |m' - m| * 1.9918 ≤ |m' - m| * (m' + m) := by
    apply mul_le_mul_of_nonneg_left _ hy; linarith
  have b4 : (0.9918 : ℝ) ≤ m * m' := by nlinarith
  have b5 : 0.0075 * |s - s'| * 0.9918 ≤ 0.0075 * |s - s'| * (m * m') := by
    apply mul_le_mul_of_nonneg_left b4; positivity
  linarith

theorem W_lip {z N N' D D' ν σ : ℝ} (hN : |N| ≤ ν) (hs : |z / D'| ≤ σ) :
    |W z N D - W z N' D'| ≤ 0.0066944 * (ν * |z / D - z / D'| + σ * |N - N'|) := by
  unfold W
  have e1 : z + e ^ 2 * N * (z / D) - (z + e ^ 2 * N' * (z / D'))
      = e ^ 2 * (N * (z / D - z / D') + (z / D') * (N - N')) := by ring
  rw [e1, abs_mul, abs_of_nonneg (sq_nonneg e)]
  have h1 := e_sq_lt
  have hσ : 0 ≤ σ := (abs_nonneg _).trans hs
  have hν : 0 ≤ ν := (abs_nonneg _).trans hN
  have h2 : |N * (z / D - z / D') + (z / D') * (N - N')| ≤ ν * |z / D - z / D'| + σ * |N - N'| := by
    refine (abs_add_le _ _).trans ?_
    rw [abs_mul, abs_mul]
    gcongr
  calc e ^ 2 * _ ≤ e ^ 2 * (ν * |z / D - z / D'| + σ * |N - N'|) := by gcongr
    _ ≤ _ := by
      apply mul_le_mul_of_nonneg_right h1.le
      positivity

/-! ## The region -/

/-- The region of `(N, D)`. -/
def Reg (p z : ℝ) (x : ℝ × ℝ) : Prop := a ≤ x.1 ∧ x.1 ≤ 1.2 * a + R p z ∧ 0.91 * R p z ≤ x.2

theorem abs_z_le (p z : ℝ) : |z| ≤ R p z := by
  unfold R
  apply Real.abs_le_sqrt
  nlinarith [sq_nonneg p]

theorem Reg.pos {p z : ℝ} (hr : a / 10 ≤ R p z) {x : ℝ × ℝ} (h : Reg p z x) : 0 < x.2 := by
  have := a_pos
  have := h.2.2
  linarith

theorem Reg.sin {p z : ℝ} (hr : a / 10 ≤ R p z) {x : ℝ × ℝ} (h : Reg p z x) : |z / x.2| ≤ 1.1 := by
  have hp := h.pos hr
  rw [abs_div, abs_of_pos hp, div_le_iff₀ hp]
  have := h.2.2
  have := abs_z_le p z
  have := a_pos
  linarith

theorem R_mono {p z w : ℝ} (h : |z| ≤ |w|) : R p z ≤ R p w := by
  unfold R
  apply Real.sqrt_le_sqrt
  have := sq_le_sq.2 h
  linarith

theorem W_ge {z N D : ℝ} (hN : 0 ≤ N) (hD : 0 < D) : |z| ≤ |W z N D| := by
  unfold W
  have e1 : z + e ^ 2 * N * (z / D) = z * (1 + e ^ 2 * N / D) := by field_simp
  rw [e1, abs_mul]
  have : 0 ≤ e ^ 2 * N / D := by positivity
  rw [abs_of_pos (show 0 < 1 + e ^ 2 * N / D by linarith)]
  nlinarith [abs_nonneg z]

/-- Entering or staying in the region. -/
theorem Reg.of_step {p z N D : ℝ} (hr : a / 10 ≤ R p z) (hN : 0 ≤ N) (hD : 0 < D)
    (h1 : a ≤ SN z D) (h2 : SN z D ≤ 1.2 * a + R p z) : Reg p z (stepND p z (N, D)) := by
  refine ⟨h1, h2, ?_⟩
  simp only [stepND]
  have hR := R_mono (p := p) (W_ge (z := z) hN hD)
  have hE := e_sq_lt
  have hE0 := e_sq_gt
  have ha := a_pos
  have : e ^ 2 * SN z D ≤ 0.0066944 * (1.2 * a + R p z) := by
    apply mul_le_mul hE.le h2 (by linarith) (by norm_num)
  linarith

theorem SN_bounds {z D : ℝ} (hs : |z / D| ≤ 1.1) : a ≤ SN z D ∧ SN z D ≤ 1.0042 * a := by
  obtain ⟨l, u, -, -⟩ := root_bounds hs
  have ha := a_pos
  unfold SN
  constructor
  · rw [le_div_iff₀ (by linarith)]; nlinarith
  · rw [div_le_iff₀ (by linarith)]; nlinarith

theorem Reg.step {p z : ℝ} (hr : a / 10 ≤ R p z) {x : ℝ × ℝ} (h : Reg p z x) : Reg p z (stepND p z x) := by
  obtain ⟨h1, h2⟩ := SN_bounds (h.sin hr)
  have ha := a_pos
  exact Reg.of_step hr (by linarith [h.1]) (h.pos hr) h1 (by linarith)

/-- Distance of two states. -/
noncomputable def dND (x y : ℝ × ℝ) : ℝ := |x.1 - y.1| + |x.2 - y.2|

theorem contracts {p z : ℝ} (hr : a / 10 ≤ R p z) {x y : ℝ × ℝ} (hx : Reg p z x) (hy : Reg p z y) :
    |W z x.1 x.2 - W z y.1 y.2| ≤ dND x y / 5 ∧ dND (stepND p z x) (stepND p z y) ≤ dND x y / 5 := by
  have ha := a_pos
  have hR : 0 < R p z := by linarith
  have sx := hx.sin hr
  have sy := hy.sin hr
  have hs := s_lip (d := 0.91 * R p z) (by linarith) (hx.pos hr) hy.2.2 sx
  have hN : |SN z x.2 - SN z y.2| ≤ _ := N_lip sx sy
  have hW := W_lip (N := x.1) (N' := y.1) (D := x.2) (ν := 1.2 * a + R p z)
    (by rw [abs_of_nonneg (by linarith [hx.1])]; exact hx.2.1) sy
  have hR' := R_lip p (W z x.1 x.2) (W z y.1 y.2)
  have hE := e_sq_lt
  have hE0 := e_sq_gt
  have n1 := abs_nonneg (x.1 - y.1)
  have n2 := abs_nonneg (x.2 - y.2)
  have hs2 : R p z * |z / x.2 - z / y.2| ≤ 1.21 * |x.2 - y.2| := by
    have : R p z * |z / x.2 - z / y.2| ≤ R p z * (1.1 / (0.91 * R p z) * |x.2 - y.2|) := by gcongr
    refine this.trans ?_
    have e1 : R p z * (1.1 / (0.91 * R p z) * |x.2 - y.2|) = 1.1 / 0.91 * |x.2 - y.2| := by field_simp
    rw [e1]
    apply mul_le_mul_of_nonneg_right _ n2
    norm_num
  have n3 := abs_nonneg (z / x.2 - z / y.2)
  generalize |z / x.2 - z / y.2| = Δs at *
  have as : a * Δs ≤ 12.1 * |x.2 - y.2| := by nlinarith
  have hW2 : |W z x.1 x.2 - W z y.1 y.2| ≤ 0.1054 * |x.2 - y.2| + 0.0074 * |x.1 - y.1| := by
    nlinarith
  have hN2 : |SN z x.2 - SN z y.2| ≤ 0.091 * |x.2 - y.2| := by nlinarith
  have hED : |e ^ 2 * SN z x.2 - e ^ 2 * SN z y.2| ≤ 0.0066944 * (0.091 * |x.2 - y.2|) := by
    rw [← mul_sub, abs_mul, abs_of_nonneg (sq_nonneg e)]
    apply mul_le_mul hE.le hN2 (abs_nonneg _) (by norm_num)
  unfold dND stepND
  constructor
  · linarith
  · have h3 : |(R p (W z x.1 x.2) - e ^ 2 * SN z x.2) - (R p (W z y.1 y.2) - e ^ 2 * SN z y.2)|
        ≤ |R p (W z x.1 x.2) - R p (W z y.1 y.2)| + |e ^ 2 * SN z x.2 - e ^ 2 * SN z y.2| := by
      rw [show (R p (W z x.1 x.2) - e ^ 2 * SN z x.2) - (R p (W z y.1 y.2) - e ^ 2 * SN z y.2)
        = (R p (W z x.1 x.2) - R p (W z y.1 y.2)) - (e ^ 2 * SN z x.2 - e ^ 2 * SN z y.2) by ring]
      exact abs_sub _ _
    simp only
    linarith

/-! ## The iterates -/

/-- `(N, D)` after `n` rounds. -/
noncomputable def xs (p z : ℝ) : ℕ → ℝ × ℝ
  | 0 => (a, a * (1 - e ^ 2))
  | n + 1 => stepND p z (xs p z n)

/-- The latitude after `n` rounds. -/
noncomputable def lats (p z : ℝ) : ℕ → ℝ
  | 0 => 0
  | n + 1 => Real.arctan (W z (xs p z n).1 (xs p z n).2 / p)

/-- The previous latitude after `n` rounds. -/
noncomputable def prevs (p z : ℝ) : ℕ → ℝ
  | 0 => 90
  | n + 1 => lats p z n

theorem after_eq {p z : ℝ} (hp : 0 < p)
    (hg : ∀ n, 0 < (xs p z n).2 ∧ 0 < 1 - (e * (z / (xs p z n).2)) ^ 2) (n : ℕ) :
    ecef2lla_after p z n = .ok ⟨lats p z n, prevs p z n, (xs p z n).1,
      (xs p z n).2 - (xs p z n).1 * (1 - e ^ 2)⟩ := by
  induction n with
  | zero => simp [ecef2lla_after, ecef2lla_init, lats, prevs, xs]
  | succ n ih =>
    simp only [ecef2lla_after, ih]
    rw [body_ok hp _ (D := (xs p z n).2) (by simp) (hg n).1.ne' (hg n).2]
    simp only [lats, prevs, xs, stepND]
    congr 2
    ring

theorem e_bounds : 0.0818 < e ∧ e < 0.08182 := by
  have h1 := e_sq_lt
  have h2 := e_sq_gt
  have h3 := e_nonneg
  constructor <;> nlinarith

/-- The first round enters the region. -/
theorem first {p z : ℝ} (hr : a / 10 ≤ R p z) (hz : |z| ≤ 12 * a) :
    0 < a * (1 - e ^ 2) ∧ 0 < 1 - (e * (z / (a * (1 - e ^ 2)))) ^ 2 ∧ Reg p z (xs p z 1) := by
  have ha := a_pos
  have hE := e_sq_lt
  have hE0 := e_sq_gt
  have hD : 0 < a * (1 - e ^ 2) := mul_pos ha (by linarith)
  have hs : ∀ k : ℝ, |z| ≤ k * a → (z / (a * (1 - e ^ 2))) ^ 2 ≤ k ^ 2 / (0.9933056) ^ 2 := by
    intro k hk
    rw [div_pow, div_le_div_iff₀ (by positivity) (by norm_num)]
    have h1 : z ^ 2 ≤ (k * a) ^ 2 := by
      rw [← sq_abs z]; exact pow_le_pow_left₀ (abs_nonneg _) hk 2
    have h2 : (0.9933056 : ℝ) ^ 2 ≤ (1 - e ^ 2) ^ 2 := by
      apply pow_le_pow_left₀ (by norm_num); linarith
    calc z ^ 2 * 0.9933056 ^ 2 ≤ (k * a) ^ 2 * (1 - e ^ 2) ^ 2 := by
          apply mul_le_mul h1 h2 (by norm_num) (by positivity)
      _ = _ := by ring
  have h12 := hs 12 hz
  have key : ∀ m u : ℝ, (z / (a * (1 - e ^ 2))) ^ 2 ≤ m → 0 < u → u ^ 2 ≤ 1 - 0.0066944 * m →
      u ≤ Real.sqrt (1 - (e * (z / (a * (1 - e ^ 2)))) ^ 2) ∧ 0 < 1 - (e * (z / (a * (1 - e ^ 2)))) ^ 2 := by
    intro m u hm hu hum
    rw [mul_pow]
    have : e ^ 2 * (z / (a * (1 - e ^ 2))) ^ 2 ≤ 0.0066944 * m :=
      mul_le_mul hE.le hm (by positivity) (by norm_num)
    have h0 : u ^ 2 ≤ 1 - e ^ 2 * (z / (a * (1 - e ^ 2))) ^ 2 := by linarith
    exact ⟨Real.le_sqrt_of_sq_le h0, by have := pow_pos hu 2; linarith⟩
  obtain ⟨k1, k2⟩ := key _ 0.15 h12 (by norm_num) (by norm_num)
  refine ⟨hD, k2, ?_⟩
  have hle : Real.sqrt (1 - (e * (z / (a * (1 - e ^ 2)))) ^ 2) ≤ 1 := by
    rw [Real.sqrt_le_iff]; constructor
    · norm_num
    · nlinarith [sq_nonneg (e * (z / (a * (1 - e ^ 2))))]
  apply Reg.of_step hr ha.le hD
  · unfold SN
    rw [le_div_iff₀ (by linarith)]
    nlinarith
  · unfold SN
    by_cases h6 : |z| ≤ 6 * a
    · obtain ⟨k3, -⟩ := key _ 0.86 (hs 6 h6) (by norm_num) (by norm_num)
      rw [div_le_iff₀ (by linarith)]
      nlinarith
    · push Not at h6
      have := abs_z_le p z
      rw [div_le_iff₀ (by linarith)]
      nlinarith

theorem xs_reg {p z : ℝ} (hr : a / 10 ≤ R p z) (hz : |z| ≤ 12 * a) (n : ℕ) : Reg p z (xs p z (n + 1)) := by
  induction n with
  | zero => exact (first hr hz).2.2
  | succ n ih => exact ih.step hr

theorem xs_good {p z : ℝ} (hr : a / 10 ≤ R p z) (hz : |z| ≤ 12 * a) (n : ℕ) :
    0 < (xs p z n).2 ∧ 0 < 1 - (e * (z / (xs p z n).2)) ^ 2 := by
  cases n with
  | zero => exact ⟨(first hr hz).1, (first hr hz).2.1⟩
  | succ n =>
    have h := xs_reg hr hz n
    exact ⟨h.pos hr, (root_bounds (h.sin hr)).2.2.2⟩

/-! ## Latitude differences -/

theorem arctan_lip (u v : ℝ) : |Real.arctan u - Real.arctan v| ≤ |u - v| := by
  have := Convex.norm_image_sub_le_of_norm_deriv_le (f := Real.arctan) (C := 1) (s := Set.univ) (x := v) (y := u)
    (fun x _ => Real.differentiable_arctan x)
    (fun x _ => by
      rw [Real.deriv_arctan, Real.norm_eq_abs, abs_of_pos (by positivity), div_le_one (by positivity)]
      nlinarith [sq_nonneg x]) convex_univ (Set.mem_univ _) (Set.mem_univ _)
  simpa using this

/-- Beyond `m`, the latitude changes by at most the change of `w` over the distance from the centre. -/
theorem arctan_lip_far {p m u v : ℝ} (hp : 0 < p) (hm : 0 ≤ m) (hu : m ≤ u) (hv : m ≤ v) :
    |Real.arctan (u / p) - Real.arctan (v / p)| ≤ |u - v| / R p m := by
  have hR : 0 < R p m := Real.sqrt_pos.2 (by positivity)
  have hR2 : R p m ^ 2 = p ^ 2 + m ^ 2 := Real.sq_sqrt (by positivity)
  have hpR : p ≤ R p m := Real.le_sqrt_of_sq_le (by nlinarith [sq_nonneg m])
  have hd : ∀ x, HasDerivAt (fun w => Real.arctan (w / p)) (1 / (1 + (x / p) ^ 2) * (1 / p)) x := by
    intro x
    have h1 := (hasDerivAt_id x).div_const p
    exact h1.arctan
  have := Convex.norm_image_sub_le_of_norm_hasDerivWithin_le (f := fun w => Real.arctan (w / p))
    (C := 1 / R p m) (s := Set.Ici m) (x := v) (y := u) (fun x _ => (hd x).hasDerivWithinAt)
    (fun x hx => by
      have hx' : m ≤ x := hx
      have : 1 / (1 + (x / p) ^ 2) * (1 / p) = p / (p ^ 2 + x ^ 2) := by field_simp
      rw [this, Real.norm_eq_abs, abs_of_pos (by positivity), div_le_div_iff₀ (by positivity) hR]
      nlinarith) (convex_Ici m) hv hu
  rw [Real.norm_eq_abs, Real.norm_eq_abs] at this
  calc _ ≤ _ := this
    _ = _ := by ring

theorem W_sign {z N D : ℝ} (hN : 0 ≤ N) (hD : 0 < D) :
    (0 ≤ z → |z| ≤ W z N D) ∧ (z ≤ 0 → |z| ≤ - W z N D) := by
  unfold W
  have : 0 ≤ e ^ 2 * N / D := by positivity
  have e1 : z + e ^ 2 * N * (z / D) = z + z * (e ^ 2 * N / D) := by field_simp
  rw [e1]
  constructor
  · intro h; rw [abs_of_nonneg h]; nlinarith
  · intro h; rw [abs_of_nonpos h]; nlinarith

theorem lat_lip {p z N D N' D' : ℝ} (hp : 0 < p) (hN : 0 ≤ N) (hD : 0 < D) (hN' : 0 ≤ N') (hD' : 0 < D') :
    |Real.arctan (W z N D / p) - Real.arctan (W z N' D' / p)| ≤ |W z N D - W z N' D'| / R p z := by
  have hR : R p |z| = R p z := by unfold R; rw [sq_abs]
  rcases le_total 0 z with h | h
  · rw [← hR]
    exact arctan_lip_far hp (abs_nonneg z) ((W_sign hN hD).1 h) ((W_sign hN' hD').1 h)
  · have := arctan_lip_far hp (abs_nonneg z) ((W_sign hN hD).2 h) ((W_sign hN' hD').2 h)
    rw [hR, neg_div, neg_div, Real.arctan_neg, Real.arctan_neg] at this
    rwa [← abs_neg, ← abs_neg (W z N D - W z N' D'), show -(Real.arctan (W z N D / p) - Real.arctan (W z N' D' / p))
      = -Real.arctan (W z N D / p) - -Real.arctan (W z N' D' / p) by ring,
      show -(W z N D - W z N' D') = -W z N D - -W z N' D' by ring]

theorem xs_dist {p z : ℝ} (hr : a / 10 ≤ R p z) (hz : |z| ≤ 12 * a) {y : ℝ × ℝ} (hy : Reg p z y)
    (hfix : stepND p z y = y) (n : ℕ) : dND (xs p z (n + 1)) y ≤ dND (xs p z 1) y * (1 / 5) ^ n := by
  induction n with
  | zero => simp
  | succ n ih =>
    have := (contracts hr (xs_reg hr hz n) hy).2
    rw [hfix] at this
    change dND (stepND p z (xs p z (n + 1))) y ≤ _
    rw [pow_succ]
    linarith

theorem xs_step_dist {p z : ℝ} (hr : a / 10 ≤ R p z) (hz : |z| ≤ 12 * a) (n : ℕ) :
    dND (xs p z (n + 2)) (xs p z (n + 1)) ≤ dND (xs p z 2) (xs p z 1) * (1 / 5) ^ n := by
  induction n with
  | zero => simp
  | succ n ih =>
    have := (contracts hr (xs_reg hr hz (n + 1)) (xs_reg hr hz n)).2
    change dND (stepND p z (xs p z (n + 2))) (stepND p z (xs p z (n + 1))) ≤ _
    rw [pow_succ]
    linarith

theorem lats_step {p z : ℝ} (hp : 0 < p) (hr : a / 10 ≤ R p z) (hz : |z| ≤ 12 * a) (n : ℕ) :
    |lats p z (n + 3) - lats p z (n + 2)| ≤ dND (xs p z 2) (xs p z 1) * (1 / 5) ^ n / R p z := by
  have h1 := xs_reg hr hz (n + 1)
  have h2 := xs_reg hr hz n
  have ha := a_pos
  have hR : 0 < R p z := by linarith
  refine (lat_lip hp (by linarith [h1.1]) (h1.pos hr) (by linarith [h2.1]) (h2.pos hr)).trans ?_
  apply div_le_div_of_nonneg_right _ hR.le
  have := (contracts hr h1 h2).1
  have h3 := xs_step_dist hr hz n
  have h4 : 0 ≤ dND (xs p z (n + 2)) (xs p z (n + 1)) := by unfold dND; positivity
  linarith

theorem leaves_iff {p z tol : ℝ} (hp : 0 < p) (hr : a / 10 ≤ R p z) (hz : |z| ≤ 12 * a) (n : ℕ) :
    ecef2lla_leaves p z tol n ↔ |lats p z n - prevs p z n| < tol := by
  unfold ecef2lla_leaves
  rw [after_eq hp (xs_good hr hz)]
  simp

theorem exists_leaves {p z tol : ℝ} (hp : 0 < p) (hr : a / 10 ≤ R p z) (hz : |z| ≤ 12 * a) (ht : 0 < tol) :
    ∃ n, ecef2lla_leaves p z tol n := by
  have ha := a_pos
  have hR : 0 < R p z := by linarith
  obtain ⟨n, hn⟩ := exists_pow_lt_of_lt_one (y := (1 / 5 : ℝ))
    (show 0 < tol * R p z / (dND (xs p z 2) (xs p z 1) + 1) by
      have : 0 ≤ dND (xs p z 2) (xs p z 1) := by unfold dND; positivity
      positivity) (by norm_num)
  refine ⟨n + 3, (leaves_iff hp hr hz _).2 ?_⟩
  refine (lats_step hp hr hz n).trans_lt ?_
  have h0 : 0 ≤ dND (xs p z 2) (xs p z 1) := by unfold dND; positivity
  rw [lt_div_iff₀ (by linarith)] at hn
  rw [div_lt_iff₀ hR]
  have : (0 : ℝ) < (1 / 5) ^ n := by positivity
  nlinarith

theorem loop_returns {p z tol : ℝ} (hp : 0 < p) (hr : a / 10 ≤ R p z) (hz : |z| ≤ 12 * a) (ht : 0 < tol) :
    ∃ n, |lats p z n - prevs p z n| < tol ∧ (∀ m < n, ¬ |lats p z m - prevs p z m| < tol) ∧
    ecef2lla_loop p z tol = some (.ok ⟨lats p z n, prevs p z n, (xs p z n).1,
      (xs p z n).2 - (xs p z n).1 * (1 - e ^ 2)⟩) := by
  classical
  have h := exists_leaves hp hr hz ht
  refine ⟨Nat.find h, (leaves_iff hp hr hz _).1 (Nat.find_spec h),
    fun m hm h' => Nat.find_min h hm ((leaves_iff hp hr hz _).2 h'), ?_⟩
  rw [loop_eq (Nat.find_spec h) (fun m hm => Nat.find_min h hm), after_eq hp (xs_good hr hz)]

end Dis.Geo
