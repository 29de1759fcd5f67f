import Verif.Proof.Coordinates64

/-!
# Rounding errors of `lla2ecef`
-/

set_option exponentiation.threshold 4096

namespace Dis.Geo

open Dbl (num)

theorem mul_unit {x y A : ℝ} (hx : |x| ≤ A) (hy : |y| ≤ 1) : |x * y| ≤ A := by
  rw [abs_mul]
  calc |x| * |y| ≤ A * 1 := mul_le_mul hx hy (abs_nonneg _) ((abs_nonneg _).trans hx)
    _ = A := mul_one A

theorem lla2ecef_near {P : Dbl.Platform} (h1 : P.SquareOk) (h2 : P.SquareReturns) (h3 : P.TrigOk) {lla : Dbl.Vec}
    (hf : ∀ i, (lla i).Finite) (hlat : |ofDouble (lla 0)| ≤ 90) (hlon : |ofDouble (lla 1)| ≤ 360)
    (halt : |ofDouble (lla 2)| ≤ 2 ^ 900) :
    ∃ r, Dbl.lla2ecef P lla = .ok r ∧ ∀ i, Ap (r i) (lla2ecef (fun i => ofDouble (lla i)) i)
      (4e-15 * (6378137 + |ofDouble (lla 2)|)) ∧
      |lla2ecef (fun i => ofDouble (lla i)) i| ≤ 1.0035 * (6378137 + |ofDouble (lla 2)|) := by
  generalize hR : 6378137 + |ofDouble (lla 2)| = R
  have hR0 : 6378137 ≤ R := by linarith [abs_nonneg (ofDouble (lla 2))]
  have hR1 : R ≤ 2 ^ 901 := by
    have : (6378137 : ℝ) + 2 ^ 900 ≤ 2 ^ 901 := by norm_num
    linarith
  have alt := Ap.self (hf 2)
  have lat := (Ap.deg2rad (hf 0) hlat (by norm_num)).mono (g := 4.24e-16) (by norm_num)
  have lon := (Ap.deg2rad (hf 1) hlon (by norm_num)).mono (g := 1.7e-15) (by norm_num)
  obtain ⟨s1, s2⟩ := lat.sin h3 (g := 6.5e-16) (by norm_num)
  obtain ⟨c1, c2⟩ := lat.cos h3 (g := 6.5e-16) (by norm_num)
  obtain ⟨sl1, sl2⟩ := lon.sin h3 (g := 1.93e-15) (by norm_num)
  obtain ⟨cl1, cl2⟩ := lon.cos h3 (g := 1.93e-15) (by norm_num)
  unfold lla2ecef
  dsimp only
  generalize ofDouble (lla 2) = A at *
  generalize deg2rad (ofDouble (lla 0)) = t at *
  generalize deg2rad (ofDouble (lla 1)) = l at *
  have bs := Real.abs_sin_le_one t
  have bc := Real.abs_cos_le_one t
  have bsl := Real.abs_sin_le_one l
  have bcl := Real.abs_cos_le_one l
  have be : |WGS84.e| ≤ 0.0819 := by rw [abs_of_nonneg e_nonneg]; exact e_lt.le
  have w1 : Ap (F64.mul Dbl.WGS84.e (P.sin (Dbl.deg2rad (lla 0)))) (WGS84.e * Real.sin t) 1.1e-15 :=
    Ap.e.mul s2 be bs (by norm_num) (by norm_num)
  have w2 : |WGS84.e * Real.sin t| ≤ 0.0819 := by
    rw [abs_mul]
    calc |WGS84.e| * |Real.sin t| ≤ 0.0819 * 1 := by gcongr
      _ = _ := by norm_num
  obtain ⟨N, n1, n2⟩ := w1.normal h1 h2 w2
  have b0 : WGS84.a ≤ WGS84.a / Real.sqrt (1 - (WGS84.e * Real.sin t) ^ 2) ∧
      WGS84.a / Real.sqrt (1 - (WGS84.e * Real.sin t) ^ 2) ≤ 6.4e6 := by
    have hw2 : (WGS84.e * Real.sin t) ^ 2 ≤ 0.00671 := by
      rw [← sq_abs]; exact (pow_le_pow_left₀ (abs_nonneg _) w2 2).trans (by norm_num)
    have hw0 := sq_nonneg (WGS84.e * Real.sin t)
    have r0 : Real.sqrt (1 - (WGS84.e * Real.sin t) ^ 2) ≤ 1 := Real.sqrt_le_one.2 (by linarith)
    have r2 : 0.9966 ≤ Real.sqrt (1 - (WGS84.e * Real.sin t) ^ 2) := Real.le_sqrt_of_sq_le (by norm_num at hw2 ⊢; linarith only [hw2])
    constructor
    · rw [le_div_iff₀ (by linarith)]
      exact mul_le_of_le_one_right a_pos.le r0
    · rw [div_le_iff₀ (by linarith)]
      unfold WGS84.a
      norm_num at r2 ⊢
      linarith only [r2]
  obtain ⟨b1, b2⟩ := b0
  have b3 : (0 : ℝ) < WGS84.a := a_pos
  generalize WGS84.a / Real.sqrt (1 - (WGS84.e * Real.sin t) ^ 2) = M at *
  have bM : |M| ≤ 6.4e6 := by rw [abs_of_nonneg (by linarith)]; exact b2
  have bA : |M + A| ≤ 1.0035 * R := by
    refine (abs_add_le _ _).trans ?_
    norm_num at bM ⊢
    linarith only [abs_nonneg A, bM, hR, hR0]
  have p1 : Ap (F64.add N (lla 2)) (M + A) (5e-16 * R) :=
    n2.add alt bA (scale_le hR1 (by norm_num; linarith only [hR0])) (by norm_num; linarith only [hR0])
  have p2 : Ap (F64.mul (F64.add N (lla 2)) (P.cos (Dbl.deg2rad (lla 0)))) ((M + A) * Real.cos t) (1.27e-15 * R) :=
    p1.mul c2 bA bc (scale_le hR1 (by norm_num; linarith only [hR0])) (by norm_num; linarith only [hR0])
  have bp : |(M + A) * Real.cos t| ≤ 1.0035 * R := by
    rw [abs_mul]
    calc |M + A| * |Real.cos t| ≤ (1.0035 * R) * 1 := by gcongr
      _ = _ := by ring
  have p3 : Ap (F64.mul (F64.mul (F64.add N (lla 2)) (P.cos (Dbl.deg2rad (lla 0)))) (P.cos (Dbl.deg2rad (lla 1))))
      ((M + A) * Real.cos t * Real.cos l) (4e-15 * R) :=
    p2.mul cl2 bp bcl (scale_le hR1 (by norm_num; linarith only [hR0])) (by norm_num; linarith only [hR0])
  have p4 : Ap (F64.mul (F64.mul (F64.add N (lla 2)) (P.cos (Dbl.deg2rad (lla 0)))) (P.sin (Dbl.deg2rad (lla 1))))
      ((M + A) * Real.cos t * Real.sin l) (4e-15 * R) :=
    p2.mul sl2 bp bsl (scale_le hR1 (by norm_num; linarith only [hR0])) (by norm_num; linarith only [hR0])
  obtain ⟨e2, f1, f2⟩ := Ap.e.square h1 h2 be (g := 1.7e-16) (by norm_num) (by norm_num)
  have q0 := e_sq_lt
  have q0' := sq_nonneg WGS84.e
  have q1 : Ap (F64.sub (num 1) e2) ((1 : ℕ) - WGS84.e ^ 2) 2.85e-16 := by
    refine (Ap.num (n := 1) (by decide)).sub f2 (S := 1) ?_ ?_ ?_
    · rw [abs_le]; constructor <;> norm_num <;> linarith
    · norm_num
    · norm_num
  rw [Nat.cast_one] at q1
  have bq : |1 - WGS84.e ^ 2| ≤ 1 := by rw [abs_le]; constructor <;> linarith
  have q2 : Ap (F64.mul N (F64.sub (num 1) e2)) (M * (1 - WGS84.e ^ 2)) (9e-16 * R) :=
    n2.mul q1 bM bq (by norm_num) (by norm_num; linarith only [hR0])
  have bq2 : |M * (1 - WGS84.e ^ 2) + A| ≤ 1.0035 * R := by
    refine (abs_add_le _ _).trans ?_
    rw [abs_mul]
    have : |M| * |1 - WGS84.e ^ 2| ≤ 6.4e6 * 1 := by gcongr
    norm_num at this ⊢
    linarith only [abs_nonneg A, this, hR, hR0]
  have q3 : Ap (F64.add (F64.mul N (F64.sub (num 1) e2)) (lla 2)) (M * (1 - WGS84.e ^ 2) + A) (1.1e-15 * R) :=
    q2.add alt bq2 (scale_le hR1 (by norm_num; linarith only [hR0])) (by norm_num; linarith only [hR0])
  have q4 : Ap (F64.mul (F64.add (F64.mul N (F64.sub (num 1) e2)) (lla 2)) (P.sin (Dbl.deg2rad (lla 0))))
      ((M * (1 - WGS84.e ^ 2) + A) * Real.sin t) (4e-15 * R) :=
    q3.mul s2 bq2 bs (scale_le hR1 (by norm_num; linarith only [hR0])) (by norm_num; linarith only [hR0])
  refine ⟨![F64.mul (F64.mul (F64.add N (lla 2)) (P.cos (Dbl.deg2rad (lla 0)))) (P.cos (Dbl.deg2rad (lla 1))),
    F64.mul (F64.mul (F64.add N (lla 2)) (P.cos (Dbl.deg2rad (lla 0)))) (P.sin (Dbl.deg2rad (lla 1))),
    F64.mul (F64.add (F64.mul N (F64.sub (num 1) e2)) (lla 2)) (P.sin (Dbl.deg2rad (lla 0)))], ?_, ?_⟩
  · unfold Dbl.lla2ecef
    dsimp only
    rw [s1, bind_ok, n1, bind_ok, c1, bind_ok, cl1, bind_ok, sl1, bind_ok, f1, bind_ok]
    rfl
  · intro i
    fin_cases i
    · exact ⟨p3, mul_unit bp bcl⟩
    · exact ⟨p4, mul_unit bp bsl⟩
    · exact ⟨q4, mul_unit bq2 bs⟩

theorem square_near {x y : ℝ} (hy : y ^ 2 ≤ 1) (h : |x - y| ≤ 4.02e-15) : |x ^ 2 - y ^ 2| ≤ 8.1e-15 := by
  have hy1 : |y| ≤ 1 := by
    rw [← one_pow 2] at hy
    exact abs_le_of_sq_le_sq hy (by norm_num)
  have : x ^ 2 - y ^ 2 = (x - y) * ((x - y) + 2 * y) := by ring
  rw [this, abs_mul]
  have h2 : |x - y + 2 * y| ≤ 4.02e-15 + 2 * 1 := by
    refine (abs_add_le _ _).trans (add_le_add h ?_)
    rw [abs_mul, abs_two]
    gcongr
  calc |x - y| * |x - y + 2 * y| ≤ 4.02e-15 * (4.02e-15 + 2 * 1) := mul_le_mul h h2 (abs_nonneg _) (by norm_num)
    _ ≤ 8.1e-15 := by norm_num

theorem ellipsoid_near {r v : Vec} (E : OnEllipsoid v) (h : ∀ i, |r i - v i| ≤ 4e-15 * (6378137 + 0)) :
    |(r 0 / 6378137) ^ 2 + (r 1 / 6378137) ^ 2 + (r 2 / 6356752.3142) ^ 2 - 1| ≤ 3e-14 := by
  unfold OnEllipsoid at E
  rw [← div_pow, ← div_pow, ← div_pow] at E
  have g : ∀ i (c : ℝ), 6356752.3142 ≤ c → |r i / c - v i / c| ≤ 4.02e-15 := by
    intro i c hc
    have hc0 : 0 < c := by norm_num at hc ⊢; linarith
    rw [← sub_div, abs_div, abs_of_pos hc0, div_le_iff₀ hc0]
    have := h i
    norm_num at this hc ⊢
    linarith
  have n0 := sq_nonneg (v 0 / 6378137)
  have n1 := sq_nonneg (v 1 / 6378137)
  have n2 := sq_nonneg (v 2 / 6356752.3142)
  have g0 := square_near (by linarith) (g 0 6378137 (by norm_num))
  have g1 := square_near (by linarith) (g 1 6378137 (by norm_num))
  have g2 := square_near (by linarith) (g 2 6356752.3142 le_rfl)
  generalize (v 0 / 6378137) ^ 2 = V0 at *
  generalize (v 1 / 6378137) ^ 2 = V1 at *
  generalize (v 2 / 6356752.3142) ^ 2 = V2 at *
  generalize (r 0 / 6378137) ^ 2 = R0 at *
  generalize (r 1 / 6378137) ^ 2 = R1 at *
  generalize (r 2 / 6356752.3142) ^ 2 = R2 at *
  have e : R0 + R1 + R2 - 1 = (R0 - V0) + (R1 - V1) + (R2 - V2) := by linarith
  rw [e]
  refine (abs_add_three _ _ _).trans ((add_le_add (add_le_add g0 g1) g2).trans ?_)
  norm_num

/-! ## `lla2gcc` -/

theorem vsub_near {u v : Dbl.Vec} {x y : Vec} {R S : ℝ} (hR : R ≤ 2 ^ 901) (hS : S ≤ 2 ^ 901) (hR0 : 0 ≤ R) (hS0 : 0 ≤ S)
    (hu : ∀ i, Ap (u i) (x i) (4e-15 * R) ∧ |x i| ≤ 1.0035 * R)
    (hv : ∀ i, Ap (v i) (y i) (4e-15 * S) ∧ |y i| ≤ 1.0035 * S) (i : Fin 3) :
    Ap (Dbl.vsub u v i) ((x - y) i) (4.2e-15 * (R + S)) := by
  obtain ⟨u1, u2⟩ := hu i
  obtain ⟨v1, v2⟩ := hv i
  refine u1.sub v1 (S := 1.0035 * R + 1.0035 * S) ((abs_sub _ _).trans (add_le_add u2 v2)) ?_ ?_
  · have h1 := scale_le hR (t := 100 * R) le_rfl
    have h2 := scale_le hS (t := 100 * S) le_rfl
    norm_num
    linarith only [h1, h2, hR0, hS0]
  · norm_num
    linarith only [hR0, hS0]

/-! ## Infinite angles -/

theorem deg2rad_infinite {x : F64} (h : x.Infinite) : (Dbl.deg2rad x).Infinite := by
  obtain ⟨h1, h2⟩ := h
  have e1 : F64.mul x Dbl.pi = F64.inf ((x.sign + Dbl.pi.sign) % 2) := by
    unfold F64.mul
    dsimp only
    rw [if_neg, if_pos (Or.inl h1), if_neg]
    · rintro (⟨h, -⟩ | ⟨h, -⟩)
      · omega
      · revert h; decide
    · rintro (⟨-, h⟩ | ⟨h, -⟩)
      · exact h h2
      · revert h; decide
  unfold Dbl.deg2rad
  rw [e1]
  have : ∀ s < 2, (F64.div (F64.inf s) (num 180)).expo = 2047 ∧ (F64.div (F64.inf s) (num 180)).frac = 0 := by
    decide +kernel
  exact this _ (Nat.mod_lt _ (by decide))

end Dis.Geo
