import Verif.Proof.Turned64
import Verif.Proof.Ecef64

/-!
# Three angles from the axes of a turned frame, in doubles
-/

set_option exponentiation.threshold 4096

namespace Dis.Geo

open Matrix

/-! ## The angle of a point of the plane -/

theorem angle_aux {r c : ℝ} (hr : 0 ≤ r) (hc : |c| ≤ 8e-16) : r * |c| ≤ 8e-16 * r := by
  rw [mul_comm]
  exact mul_le_mul_of_nonneg_right hc hr

theorem angle_rel {L : Dbl.Libm} (h4 : L.ArcOk) (h8 : L.ArcZero) {y x : F64} (hy : y.Finite) (hx : x.Finite) :
    (L.atan2 y x).Finite ∧ |ofDouble (L.atan2 y x)| ≤ 3.1416 ∧
    |Real.sqrt (ofDouble x ^ 2 + ofDouble y ^ 2) * Real.cos (ofDouble (L.atan2 y x)) - ofDouble x|
      ≤ 8e-16 * Real.sqrt (ofDouble x ^ 2 + ofDouble y ^ 2) ∧
    |Real.sqrt (ofDouble x ^ 2 + ofDouble y ^ 2) * Real.sin (ofDouble (L.atan2 y x)) - ofDouble y|
      ≤ 8e-16 * Real.sqrt (ofDouble x ^ 2 + ofDouble y ^ 2) := by
  have r0 := Real.sqrt_nonneg (ofDouble x ^ 2 + ofDouble y ^ 2)
  generalize hq : Real.sqrt (ofDouble x ^ 2 + ofDouble y ^ 2) = r at r0 ⊢
  have key : ∀ a : ℝ, r * Real.cos a = ofDouble x →
      r * Real.sin a = ofDouble y → |ofDouble (L.atan2 y x) - a| ≤ 8e-16 →
      |r * Real.cos (ofDouble (L.atan2 y x)) - ofDouble x| ≤ 8e-16 * r ∧
      |r * Real.sin (ofDouble (L.atan2 y x)) - ofDouble y| ≤ 8e-16 * r := by
    intro a e1 e2 h
    constructor
    · rw [← e1, ← mul_sub, abs_mul, abs_of_nonneg r0]
      exact angle_aux r0 ((Real.abs_cos_sub_cos_le _ _).trans h)
    · rw [← e2, ← mul_sub, abs_mul, abs_of_nonneg r0]
      exact angle_aux r0 ((Real.abs_sin_sub_sin_le _ _).trans h)
  have small : ∀ a : ℝ, |a| ≤ Real.pi → 1 / 2 ^ 52 * |a| + 1 / 2 ^ 1074 ≤ (8e-16 : ℝ) := by
    intro a ha
    have h1 := Real.pi_lt_d2
    have h2 : (1 : ℝ) / 2 ^ 52 * |a| ≤ 1 / 2 ^ 52 * 3.15 := by
      gcongr; linarith
    have h3 := tiny
    have h4 : (1 : ℝ) / 2 ^ 52 * 3.15 + 1 / 2 ^ 99 ≤ 8e-16 := by norm_num
    linarith
  by_cases hy0 : ofDouble y = 0
  · obtain ⟨f, b, g⟩ := h8 y x hy hx hy0
    refine ⟨f, b, ?_⟩
    by_cases hx0 : ofDouble x = 0
    · have : r = 0 := by rw [← hq, hx0, hy0]; simp
      rw [hx0, hy0, this]
      simp
    · obtain ⟨a, ha, hb⟩ := g hx0
      have p1 : |Geo.atan2 0 (ofDouble x)| ≤ Real.pi := Complex.abs_arg_le_pi _
      have p2 : |a| ≤ Real.pi := by
        rcases ha with h | h
        · rw [h]; exact p1
        · rw [h, abs_neg]; exact p1
      have c := atan2_cos 0 (ofDouble x)
      have s := atan2_sin 0 (ofDouble x)
      refine key a ?_ ?_ (hb.trans (small a p2))
      · rw [← hq, hy0]
        rcases ha with h | h
        · rw [h, c]
        · rw [h, Real.cos_neg, c]
      · rw [← hq, hy0]
        rcases ha with h | h
        · rw [h, s]
        · rw [h, Real.sin_neg, mul_neg, s, neg_zero]
  · obtain ⟨f, g⟩ := h4.atan2 y x hy hx (fun h => absurd h hy0)
    have p1 : |Geo.atan2 (ofDouble y) (ofDouble x)| ≤ Real.pi := Complex.abs_arg_le_pi _
    have g' := g.trans (small _ p1)
    refine ⟨f, ?_, key _ (by rw [← hq]; exact atan2_cos _ _) (by rw [← hq]; exact atan2_sin _ _) g'⟩
    have h1 := Real.pi_lt_d6
    have h2 := abs_le.1 g'
    have h3 := abs_le.1 p1
    rw [abs_le]
    norm_num at h1 h2 ⊢
    constructor <;> linarith

theorem angle_near {L : Dbl.Libm} (h4 : L.ArcOk) (h8 : L.ArcZero) {y x : F64} (hy : y.Finite) (hx : x.Finite)
    (hr : Real.sqrt (ofDouble x ^ 2 + ofDouble y ^ 2) ≤ 3) :
    (L.atan2 y x).Finite ∧
    |Real.sqrt (ofDouble x ^ 2 + ofDouble y ^ 2) * Real.cos (ofDouble (L.atan2 y x)) - ofDouble x| ≤ 3e-15 ∧
    |Real.sqrt (ofDouble x ^ 2 + ofDouble y ^ 2) * Real.sin (ofDouble (L.atan2 y x)) - ofDouble y| ≤ 3e-15 := by
  obtain ⟨f, -, c, s⟩ := angle_rel h4 h8 hy hx
  have h : 8e-16 * Real.sqrt (ofDouble x ^ 2 + ofDouble y ^ 2) ≤ 3e-15 := by
    norm_num
    linarith
  exact ⟨f, c.trans h, s.trans h⟩

/-! ## The first two angles -/

theorem first_two {x0 x1 x2 X Y Z p c s c' s' : ℝ} (hu : x0 ^ 2 + x1 ^ 2 + x2 ^ 2 = 1) (hX : |X - x0| ≤ 2.9e-11)
    (hY : |Y - x1| ≤ 2.9e-11) (hZ : |Z - x2| ≤ 2.9e-11) (hp : |p - Real.sqrt (X ^ 2 + Y ^ 2)| ≤ 1e-14)
    (h1 : |Real.sqrt (X ^ 2 + Y ^ 2) * c - X| ≤ 3e-15) (h2 : |Real.sqrt (X ^ 2 + Y ^ 2) * s - Y| ≤ 3e-15)
    (h3 : |Real.sqrt (p ^ 2 + Z ^ 2) * c' - p| ≤ 3e-15) (h4 : |Real.sqrt (p ^ 2 + Z ^ 2) * s' - -Z| ≤ 3e-15)
    (hc : |c| ≤ 1) (hs : |s| ≤ 1) (hc' : |c'| ≤ 1) (hs' : |s'| ≤ 1) :
    |c' * c - x0| ≤ 1.5e-10 ∧ |c' * s - x1| ≤ 1.5e-10 ∧ |-s' - x2| ≤ 1.5e-10 ∧ -1.2e-10 ≤ c' := by
  have k1 := sqrt_lip2 hX hY
  set r := Real.sqrt (X ^ 2 + Y ^ 2)
  set r0 := Real.sqrt (x0 ^ 2 + x1 ^ 2) with hr0
  have hr1 : Real.sqrt (r0 ^ 2 + x2 ^ 2) = 1 := by
    rw [hr0, Real.sq_sqrt (by positivity), hu, Real.sqrt_one]
  have k2 : |p - r0| ≤ 5.9e-11 := by
    refine (abs_sub_le _ r _).trans ((add_le_add hp k1).trans (by norm_num))
  have k3 := sqrt_lip2 k2 (hZ.trans (by norm_num) : |Z - x2| ≤ 5.9e-11)
  rw [hr1] at k3
  set R := Real.sqrt (p ^ 2 + Z ^ 2)
  have k4 : ∀ t : ℝ, |t| ≤ 1 → |t - R * t| ≤ 1.18e-10 := by
    intro t ht
    rw [show t - R * t = -((R - 1) * t) by ring, abs_neg, abs_mul]
    exact (mul_le_mul k3 ht (abs_nonneg _) (by norm_num)).trans (by norm_num)
  have k5 : |c' - r| ≤ 1.1802e-10 := by
    have e : c' - r = (c' - R * c') + (R * c' - p) + (p - r) := by ring
    rw [e]
    refine (abs_add_three _ _ _).trans ((add_le_add (add_le_add (k4 c' hc') h3) hp).trans (by norm_num))
  have k6 : ∀ t T x : ℝ, |t| ≤ 1 → |r * t - T| ≤ 3e-15 → |T - x| ≤ 2.9e-11 → |c' * t - x| ≤ 1.5e-10 := by
    intro t T x ht h h'
    have e : c' * t - x = (c' - r) * t + (r * t - T) + (T - x) := by ring
    rw [e]
    refine (abs_add_three _ _ _).trans ?_
    rw [abs_mul]
    have := mul_le_mul k5 ht (abs_nonneg _) (by norm_num)
    exact (add_le_add (add_le_add this h) h').trans (by norm_num)
  refine ⟨k6 c X x0 hc h1 hX, k6 s Y x1 hs h2 hY, ?_, ?_⟩
  swap
  · have := (abs_le.1 k5).1
    have rr : 0 ≤ r := Real.sqrt_nonneg _
    norm_num at this ⊢
    linarith
  have e : -s' - x2 = -(s' - R * s') + -(R * s' - -Z) + (Z - x2) := by ring
  rw [e]
  refine (abs_add_three _ _ _).trans ?_
  rw [abs_neg, abs_neg]
  exact (add_le_add (add_le_add (k4 s' hs') h4) hZ).trans (by norm_num)

/-- An angle whose cosine is not negative. -/
theorem right_angle {t : ℝ} (h : |t| ≤ 3.1416) (hc : -1.2e-10 ≤ Real.cos t) : |t| ≤ Real.pi / 2 + 2e-10 := by
  by_contra hn
  push Not at hn
  rw [← Real.cos_abs] at hc
  generalize |t| = u at *
  have p6 := Real.pi_gt_d6
  have q6 := Real.pi_lt_d6
  norm_num at p6 q6 h hn hc
  have hs : Real.cos u = -Real.sin (u - Real.pi / 2) := by rw [Real.sin_sub_pi_div_two, neg_neg]
  by_cases hu : u ≤ Real.pi
  · have := Real.mul_le_sin (show 0 ≤ u - Real.pi / 2 by linarith) (by linarith)
    have h1 : (0.63 : ℝ) ≤ 2 / Real.pi := by
      rw [le_div_iff₀ Real.pi_pos]; linarith
    have h2 := mul_le_mul_of_nonneg_right h1 (show 0 ≤ u - Real.pi / 2 by linarith)
    norm_num at h2
    linarith
  · push Not at hu
    have := Real.one_sub_sq_div_two_le_cos (x := u - Real.pi)
    rw [Real.cos_sub_pi] at this
    nlinarith

/-! ## The third angle -/

theorem third_angle {u w U W t C S : ℝ} (hu : u ^ 2 + w ^ 2 + t ^ 2 = 1) (ht : |t| ≤ 4.5e-10) (hU : |U - u| ≤ 2.9e-11)
    (hW : |W - w| ≤ 2.9e-11) (h1 : |Real.sqrt (U ^ 2 + W ^ 2) * C - U| ≤ 3e-15)
    (h2 : |Real.sqrt (U ^ 2 + W ^ 2) * S - W| ≤ 3e-15) (hC : |C| ≤ 1) (hS : |S| ≤ 1) :
    |C - u| ≤ 8.8e-11 ∧ |S - w| ≤ 8.8e-11 := by
  have k1 := sqrt_lip2 hU hW
  set R := Real.sqrt (U ^ 2 + W ^ 2)
  have t2 : t ^ 2 ≤ 1e-18 := by
    rw [← sq_abs]
    exact (pow_le_pow_left₀ (abs_nonneg _) ht 2).trans (by norm_num)
  have k2 : |Real.sqrt (u ^ 2 + w ^ 2) - 1| ≤ 1e-18 := by
    have e : u ^ 2 + w ^ 2 = 1 - t ^ 2 := by linarith
    have l : 1 - t ^ 2 ≤ Real.sqrt (1 - t ^ 2) := by
      refine Real.le_sqrt_of_sq_le ?_
      nlinarith [sq_nonneg t, sq_nonneg (t ^ 2)]
    have g : Real.sqrt (1 - t ^ 2) ≤ 1 := by
      rw [Real.sqrt_le_one]
      linarith [sq_nonneg t]
    rw [e, abs_le]
    constructor <;> linarith
  have k3 : |R - 1| ≤ 5.801e-11 := (abs_sub_le _ _ _).trans ((add_le_add k1 k2).trans (by norm_num))
  have k4 : ∀ c v V : ℝ, |c| ≤ 1 → |R * c - V| ≤ 3e-15 → |V - v| ≤ 2.9e-11 → |c - v| ≤ 8.8e-11 := by
    intro c v V hc h h'
    have e : c - v = -((R - 1) * c) + (R * c - V) + (V - v) := by ring
    rw [e]
    refine (abs_add_three _ _ _).trans ?_
    rw [abs_neg, abs_mul]
    have := mul_le_mul k3 hc (abs_nonneg _) (by norm_num)
    exact (add_le_add (add_le_add this h) h').trans (by norm_num)
  exact ⟨k4 C u U hC h1 hU, k4 S w W hS h2 hW⟩

theorem tri {a b c A B T : ℝ} (ha : |a| ≤ A) (hb : |b| ≤ B) (hc : |c| ≤ T) : |a + b + c| ≤ A + B + T :=
  (abs_add_three _ _ _).trans (add_le_add (add_le_add ha hb) hc)

theorem scale {a b A : ℝ} (ha : |a| ≤ A) (hb : |b| ≤ 1) : |a * b| ≤ A := by
  rw [abs_mul]
  exact (mul_le_mul ha hb (abs_nonneg _) ((abs_nonneg _).trans ha)).trans (by rw [mul_one])

/-- The entries of an attitude in terms of the axes after the first two angles. -/
theorem attitude_near {x y z : Vec} {a b g : ℝ} (hy : y 0 ^ 2 + y 1 ^ 2 + y 2 ^ 2 = 1) (hxy : x ⬝ᵥ y = 0) (hz : z = x ⨯₃ y)
    (x0 : |Real.cos b * Real.cos a - x 0| ≤ 1.5e-10) (x1 : |Real.cos b * Real.sin a - x 1| ≤ 1.5e-10)
    (x2 : |-Real.sin b - x 2| ≤ 1.5e-10) {U W : ℝ}
    (hU : |U - y ⬝ᵥ (Rz a *ᵥ ![0, 1, 0])| ≤ 2.9e-11) (hW : |W - y ⬝ᵥ ((Rz a * Ry b) *ᵥ ![0, 0, 1])| ≤ 2.9e-11)
    (h1 : |Real.sqrt (U ^ 2 + W ^ 2) * Real.cos g - U| ≤ 3e-15)
    (h2 : |Real.sqrt (U ^ 2 + W ^ 2) * Real.sin g - W| ≤ 3e-15) (i : Fin 3) :
    |attitude ![a, b, g] i 0 - x i| ≤ 7e-10 ∧ |attitude ![a, b, g] i 1 - y i| ≤ 7e-10 ∧
    |attitude ![a, b, g] i 2 - z i| ≤ 7e-10 := by
  have ca := Real.abs_cos_le_one a
  have sa := Real.abs_sin_le_one a
  have cb := Real.abs_cos_le_one b
  have sb := Real.abs_sin_le_one b
  have pa := Real.sin_sq_add_cos_sq a
  have pb := Real.sin_sq_add_cos_sq b
  have q0 : |y 0| ≤ 1 := by
    rw [← sq_le_one_iff_abs_le_one]; nlinarith [sq_nonneg (y 1), sq_nonneg (y 2)]
  have q1 : |y 1| ≤ 1 := by
    rw [← sq_le_one_iff_abs_le_one]; nlinarith [sq_nonneg (y 0), sq_nonneg (y 2)]
  have q2 : |y 2| ≤ 1 := by
    rw [← sq_le_one_iff_abs_le_one]; nlinarith [sq_nonneg (y 0), sq_nonneg (y 1)]
  rw [dotProduct, Fin.sum_univ_three] at hxy
  have eU : y ⬝ᵥ (Rz a *ᵥ ![0, 1, 0]) = -Real.sin a * y 0 + Real.cos a * y 1 := by
    simp [Rz, mulVec, dotProduct, Fin.sum_univ_three]; ring
  have eW : y ⬝ᵥ ((Rz a * Ry b) *ᵥ ![0, 0, 1])
      = Real.sin b * (Real.cos a * y 0 + Real.sin a * y 1) + Real.cos b * y 2 := by
    simp [Rz, Ry, mulVec, dotProduct, Fin.sum_univ_three, Matrix.mul_apply]; ring
  rw [eU] at hU
  rw [eW] at hW
  set t := Real.cos b * (Real.cos a * y 0 + Real.sin a * y 1) - Real.sin b * y 2 with ht
  set u := -Real.sin a * y 0 + Real.cos a * y 1 with hu
  set w := Real.sin b * (Real.cos a * y 0 + Real.sin a * y 1) + Real.cos b * y 2 with hw
  have unit : u ^ 2 + w ^ 2 + t ^ 2 = 1 := by
    rw [hu, hw, ht]
    linear_combination ((Real.cos a * y 0 + Real.sin a * y 1) ^ 2 + y 2 ^ 2) * pb + (y 0 ^ 2 + y 1 ^ 2) * pa + hy
  have tle : |t| ≤ 4.5e-10 := by
    have e : t = (Real.cos b * Real.cos a - x 0) * y 0 + (Real.cos b * Real.sin a - x 1) * y 1
        + (-Real.sin b - x 2) * y 2 := by rw [ht]; linear_combination hxy
    rw [e]
    exact (tri (scale x0 q0) (scale x1 q1) (scale x2 q2)).trans (by norm_num)
  obtain ⟨c1, c2⟩ := third_angle unit tle hU hW h1 h2 (Real.abs_cos_le_one g) (Real.abs_sin_le_one g)
  have m1 : |Real.cos b * Real.cos a| ≤ 1 := by rw [abs_mul]; exact mul_le_one₀ cb (abs_nonneg _) ca
  have m2 : |Real.cos b * Real.sin a| ≤ 1 := by rw [abs_mul]; exact mul_le_one₀ cb (abs_nonneg _) sa
  have m3 : |Real.sin b * Real.cos a| ≤ 1 := by rw [abs_mul]; exact mul_le_one₀ sb (abs_nonneg _) ca
  have m4 : |Real.sin b * Real.sin a| ≤ 1 := by rw [abs_mul]; exact mul_le_one₀ sb (abs_nonneg _) sa
  have nsa : |-Real.sin a| ≤ 1 := by rw [abs_neg]; exact sa
  have nsb : |-Real.sin b| ≤ 1 := by rw [abs_neg]; exact sb
  have nt : |-t| ≤ 4.5e-10 := by rw [abs_neg]; exact tle
  have c2' : |-(Real.sin g - w)| ≤ 8.8e-11 := by rw [abs_neg]; exact c2
  have n0 : |-(y 0)| ≤ 1 := by rw [abs_neg]; exact q0
  have n1 : |-(y 1)| ≤ 1 := by rw [abs_neg]; exact q1
  have n2 : |-(y 2)| ≤ 1 := by rw [abs_neg]; exact q2
  have z0 : |(0 : ℝ)| ≤ 1 := by norm_num
  have hz' : z = ![x 1 * y 2 - x 2 * y 1, x 2 * y 0 - x 0 * y 2, x 0 * y 1 - x 1 * y 0] := by
    rw [hz, cross_apply]
  rw [hz']
  have four : ∀ {A B D E : ℝ}, |A| ≤ 8.8e-11 → |B| ≤ 8.8e-11 → |D| ≤ 1.5e-10 → |E| ≤ 1.5e-10 → |A + B + D + E| ≤ 7e-10 := by
    intro A B D E hA hB hD hE
    refine (abs_add_le _ _).trans ((add_le_add (tri hA hB hD) hE).trans (by norm_num))
  have three : ∀ {A B D : ℝ}, |A| ≤ 8.8e-11 → |B| ≤ 8.8e-11 → |D| ≤ 4.5e-10 → |A + B + D| ≤ 7e-10 := by
    intro A B D hA hB hD
    exact (tri hA hB hD).trans (by norm_num)
  fin_cases i
  · refine ⟨?_, ?_, ?_⟩
    · refine le_trans (le_of_eq ?_) (x0.trans (by norm_num))
      congr 1
      simp [attitude, Rz, Ry, Rx, Matrix.mul_apply, Fin.sum_univ_three]; ring
    · refine le_trans (le_of_eq ?_) (three (scale c1 nsa) (scale c2 m3) (scale nt m1))
      congr 1
      simp [attitude, Rz, Ry, Rx, Matrix.mul_apply, Fin.sum_univ_three]
      rw [hu, hw, ht]
      linear_combination (y 0) * pa + (Real.cos a * (Real.cos a * y 0 + Real.sin a * y 1)) * pb
    · refine le_trans (le_of_eq ?_) (four (scale c2' nsa) (scale c1 m3) (scale x1 q2) (scale x2 n1))
      congr 1
      simp [attitude, Rz, Ry, Rx, Matrix.mul_apply, Fin.sum_univ_three]
      rw [hu, hw]
      linear_combination (Real.sin b * y 1) * pa
  · refine ⟨?_, ?_, ?_⟩
    · refine le_trans (le_of_eq ?_) (x1.trans (by norm_num))
      congr 1
      simp [attitude, Rz, Ry, Rx, Matrix.mul_apply, Fin.sum_univ_three]; ring
    · refine le_trans (le_of_eq ?_) (three (scale c1 ca) (scale c2 m4) (scale nt m2))
      congr 1
      simp [attitude, Rz, Ry, Rx, Matrix.mul_apply, Fin.sum_univ_three]
      rw [hu, hw, ht]
      linear_combination (y 1) * pa + (Real.sin a * (Real.cos a * y 0 + Real.sin a * y 1)) * pb
    · refine le_trans (le_of_eq ?_) (four (scale c2' ca) (scale c1 m4) (scale x2 q0) (scale x0 n2))
      congr 1
      simp [attitude, Rz, Ry, Rx, Matrix.mul_apply, Fin.sum_univ_three]
      rw [hu, hw]
      linear_combination (-(Real.sin b * y 0)) * pa
  · refine ⟨?_, ?_, ?_⟩
    · refine le_trans (le_of_eq ?_) (x2.trans (by norm_num))
      congr 1
      simp [attitude, Rz, Ry, Rx, Matrix.mul_apply, Fin.sum_univ_three]
    · refine le_trans (le_of_eq ?_) (three (scale c1 z0) (scale c2 cb) (scale nt nsb))
      congr 1
      simp [attitude, Rz, Ry, Rx, Matrix.mul_apply, Fin.sum_univ_three]
      rw [hw, ht]
      linear_combination (y 2) * pb
    · refine le_trans (le_of_eq ?_) (four (scale c2' z0) (scale c1 cb) (scale x0 q1) (scale x1 n0))
      congr 1
      simp [attitude, Rz, Ry, Rx, Matrix.mul_apply, Fin.sum_univ_three]
      rw [hu]
      ring

end Dis.Geo
