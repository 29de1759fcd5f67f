import Mathlib.Analysis.SpecialFunctions.Trigonometric.Bounds
import Verif.Proof.Rates
import Verif.Proof.Sqrt
import Verif.Spec.Libm

/-!
# Approximations with explicit bounds
-/

set_option exponentiation.threshold 4096

namespace Dis.Geo

/-- A finite double within `e` of `a`. -/
def Ap (x : F64) (a e : ℝ) : Prop := x.Finite ∧ |ofDouble x - a| ≤ e

theorem Ap.nonneg {x : F64} {a e : ℝ} (h : Ap x a e) : 0 ≤ e := (abs_nonneg _).trans h.2

theorem Ap.le {x : F64} {a e A : ℝ} (h : Ap x a e) (ha : |a| ≤ A) : |ofDouble x| ≤ A + e :=
  (abs_le_of_near h.2).trans (by linarith)

theorem Ap.mono {x : F64} {a e g : ℝ} (h : Ap x a e) (hg : e ≤ g) : Ap x a g := ⟨h.1, h.2.trans hg⟩

theorem Ap.to {x : F64} {a b e f g : ℝ} (h : Ap x a e) (hb : |a - b| ≤ f) (hg : e + f ≤ g) : Ap x b g :=
  ⟨h.1, (abs_sub_tri _ a _).trans (by linarith [h.2])⟩

theorem Ap.self {x : F64} (h : x.Finite) : Ap x (ofDouble x) 0 := ⟨h, by simp⟩

theorem Ap.neg {x : F64} {a e : ℝ} (h : Ap x a e) : Ap (F64.neg x) (-a) e := ⟨F64.neg_finite.2 h.1, neg_near h.2⟩

theorem tiny : (1 : ℝ) / 2 ^ 1074 ≤ 1 / 2 ^ 99 := by
  have := eta_le
  rw [eta_two]
  linarith

theorem Ap.mul {x y : F64} {a b e f A B g : ℝ} (hx : Ap x a e) (hy : Ap y b f) (ha : |a| ≤ A) (hb : |b| ≤ B)
    (hfin : (A + e) * (B + f) ≤ 2 ^ 1000)
    (hg : (1 + 1 / 2 ^ 53) * (e * B + A * f + e * f) + 1 / 2 ^ 53 * (A * B) + 1 / 2 ^ 100 ≤ g) :
    Ap (F64.mul x y) (a * b) g := by
  have he := hx.nonneg
  have hf := hy.nonneg
  have hA := (abs_nonneg _).trans ha
  have hB := (abs_nonneg _).trans hb
  have h : (F64.mul x y).Finite := by
    refine mul_finite_of hx.1 hy.1 (le_trans ?_ hfin)
    rw [abs_mul]
    exact mul_le_mul (hx.le ha) (hy.le hb) (abs_nonneg _) (by linarith)
  refine ⟨h, (mul_near h hx.2 hy.2).trans (le_trans ?_ hg)⟩
  have := eta_le
  gcongr

theorem Ap.add {x y : F64} {a b e f S g : ℝ} (hx : Ap x a e) (hy : Ap y b f) (hS : |a + b| ≤ S)
    (hfin : S + e + f ≤ 2 ^ 1000) (hg : (1 + 1 / 2 ^ 53) * (e + f) + 1 / 2 ^ 53 * S ≤ g) :
    Ap (F64.add x y) (a + b) g := by
  have h : (F64.add x y).Finite := by
    refine add_finite_of hx.1 hy.1 (le_trans ?_ hfin)
    have e1 : ofDouble x + ofDouble y = (a + b) + ((ofDouble x - a) + (ofDouble y - b)) := by ring
    rw [e1]
    refine (abs_add_le _ _).trans ?_
    have := (abs_add_le (ofDouble x - a) (ofDouble y - b)).trans (add_le_add hx.2 hy.2)
    linarith
  refine ⟨h, (add_near h hx.2 hy.2).trans (le_trans ?_ hg)⟩
  gcongr

theorem Ap.sub {x y : F64} {a b e f S g : ℝ} (hx : Ap x a e) (hy : Ap y b f) (hS : |a - b| ≤ S)
    (hfin : S + e + f ≤ 2 ^ 1000) (hg : (1 + 1 / 2 ^ 53) * (e + f) + 1 / 2 ^ 53 * S ≤ g) :
    Ap (F64.sub x y) (a - b) g := by
  rw [sub_eq_add_neg] at hS ⊢
  exact hx.add hy.neg hS hfin hg

theorem quotient_near {a b x y e f Q B : ℝ} (hx : |x - a| ≤ e) (hy : |y - b| ≤ f) (hq : |a / b| ≤ Q) (hb : B ≤ |b|)
    (hB : f < B) : |x / y - a / b| ≤ (e + Q * f) / (B - f) ∧ B - f ≤ |y| := by
  have hf : 0 ≤ f := (abs_nonneg _).trans hy
  have hb0 : b ≠ 0 := by
    intro h; rw [h, abs_zero] at hb; linarith
  have hy1 : B - f ≤ |y| := by
    have : |b| ≤ |y| + |y - b| := by
      have := abs_sub_tri b y 0
      simp only [sub_zero] at this
      rw [abs_sub_comm b y] at this
      linarith
    linarith
  have hy0 : y ≠ 0 := by
    intro h; rw [h, abs_zero] at hy1; linarith
  refine ⟨?_, hy1⟩
  have e1 : x / y - a / b = ((x - a) - a / b * (y - b)) / y := by field_simp; ring
  rw [e1, abs_div]
  have h1 : |x - a - a / b * (y - b)| ≤ e + Q * f := by
    refine (abs_sub _ _).trans ?_
    rw [abs_mul]
    have : |a / b| * |y - b| ≤ Q * f := mul_le_mul hq hy (abs_nonneg _) ((abs_nonneg _).trans hq)
    linarith
  exact div_le_div₀ ((abs_nonneg _).trans h1) h1 (by linarith) hy1

theorem div_finite_of {x y : F64} (hx : x.Finite) (hy : y.Finite) (h0 : ofDouble y ≠ 0)
    (h : |ofDouble x / ofDouble y| ≤ 2 ^ 1000) : (F64.div x y).Finite := by
  have hU : (0 : ℝ) < 2 ^ 1074 := by positivity
  have hy0 : y.mag ≠ 0 := fun hm => h0 (by
    have : y.units.natAbs = 0 := by rw [F64.units_abs, hm]
    unfold ofDouble
    rw [Int.natAbs_eq_zero.1 this]
    simp)
  have hm : x.mag ≤ 2 ^ 1000 * y.mag := by
    rw [abs_div, div_le_iff₀ (abs_pos.2 h0)] at h
    unfold ofDouble at h
    rw [abs_div, abs_div, abs_of_pos hU, ← mul_div_assoc, div_le_div_iff_of_pos_right hU, ← natAbs_cast, ← natAbs_cast,
      F64.units_abs, F64.units_abs] at h
    exact_mod_cast h
  have e : F64.div x y = F64.ofMag ((x.sign + y.sign) % 2)
      (F64.roundMag (2 * (x.mag * 2 ^ 1075 / y.mag) + if x.mag * 2 ^ 1075 % y.mag = 0 then 0 else 1) 2) := by
    unfold F64.div
    dsimp only
    rw [if_neg, if_neg hx, if_neg hy, if_neg hy0]
    rintro (⟨h, -⟩ | ⟨h, -⟩)
    · exact hx h
    · exact hy h
  rw [e]
  refine F64.ofMag_is_finite (Nat.mod_lt _ (by decide)) (Nat.lt_of_not_le fun hc => ?_)
  rw [roundMag_overflow] at hc
  have h1 : x.mag * 2 ^ 1075 / y.mag ≤ 2 ^ 1000 * 2 ^ 1075 := by
    refine Nat.div_le_of_le_mul ?_
    rw [show y.mag * (2 ^ 1000 * 2 ^ 1075) = 2 ^ 1000 * y.mag * 2 ^ 1075 by ring]
    exact Nat.mul_le_mul_right _ hm
  have h2 : 2 * (2 ^ 1000 * 2 ^ 1075) + 1 < (2 ^ 54 - 1) * 2 ^ (2044 + 2) := by decide +kernel
  split at hc <;> omega

theorem Ap.div {x y : F64} {a b e f Q B g : ℝ} (hx : Ap x a e) (hy : Ap y b f) (hq : |a / b| ≤ Q) (hb : B ≤ |b|)
    (hB : f < B) (hfin : Q + (e + Q * f) / (B - f) ≤ 2 ^ 1000)
    (hg : (1 + 1 / 2 ^ 53) * ((e + Q * f) / (B - f)) + 1 / 2 ^ 53 * Q + 1 / 2 ^ 100 ≤ g) :
    Ap (F64.div x y) (a / b) g ∧ ofDouble y ≠ 0 := by
  obtain ⟨q1, q2⟩ := quotient_near hx.2 hy.2 hq hb hB
  have hy0 : ofDouble y ≠ 0 := by
    intro h; rw [h, abs_zero] at q2; linarith
  have hv : |ofDouble x / ofDouble y| ≤ Q + (e + Q * f) / (B - f) :=
    (abs_le_of_near q1).trans (by linarith)
  have h : (F64.div x y).Finite := div_finite_of hx.1 hy.1 hy0 (hv.trans hfin)
  refine ⟨⟨h, (abs_sub_tri _ (ofDouble x / ofDouble y) _).trans ?_⟩, hy0⟩
  have h1 := val_div' h hy.1
  have := eta_le
  have h2 : 1 / 2 ^ 53 * |ofDouble x / ofDouble y| ≤ 1 / 2 ^ 53 * (Q + (e + Q * f) / (B - f)) := by gcongr
  linarith

theorem Ap.sqrt {x : F64} {a e q S g : ℝ} (hx : Ap x a e) (hq : 0 < q) (hqa : q * q + e ≤ a) (hS : Real.sqrt a ≤ S)
    (hg : (1 + 1 / 2 ^ 53) * (e / (2 * q)) + 1 / 2 ^ 53 * S ≤ g) :
    ∃ y, F64.sqrt x = .ok y ∧ Ap y (Real.sqrt a) g := by
  have he := hx.nonneg
  have ha := abs_le.1 hx.2
  have hx0 : q * q ≤ ofDouble x := by linarith
  have hqq : 0 < q * q := by positivity
  obtain ⟨y, e1, e2, -, e3⟩ := val_sqrt hx.1 (hqq.trans_le hx0)
  refine ⟨y, e1, e2, (abs_sub_tri _ (Real.sqrt (ofDouble x)) _).trans ?_⟩
  have s1 : q ≤ Real.sqrt (ofDouble x) := Real.le_sqrt_of_sq_le (by rw [pow_two]; exact hx0)
  have s2 : q ≤ Real.sqrt a := Real.le_sqrt_of_sq_le (by rw [pow_two]; linarith)
  have s3 : |Real.sqrt (ofDouble x) - Real.sqrt a| ≤ e / (2 * q) := by
    have : (Real.sqrt (ofDouble x) - Real.sqrt a) * (Real.sqrt (ofDouble x) + Real.sqrt a) = ofDouble x - a := by
      have r1 := Real.mul_self_sqrt (hqq.le.trans hx0)
      have r2 := Real.mul_self_sqrt (show 0 ≤ a by linarith)
      linear_combination r1 - r2
    rw [le_div_iff₀ (by linarith)]
    calc |Real.sqrt (ofDouble x) - Real.sqrt a| * (2 * q)
        ≤ |Real.sqrt (ofDouble x) - Real.sqrt a| * (Real.sqrt (ofDouble x) + Real.sqrt a) := by
          gcongr; linarith
      _ = |ofDouble x - a| := by
          rw [← this, abs_mul, abs_of_pos (show 0 < Real.sqrt (ofDouble x) + Real.sqrt a by linarith)]
      _ ≤ e := hx.2
  have s4 : Real.sqrt (ofDouble x) ≤ S + e / (2 * q) := by
    have := (abs_le.1 s3).2
    linarith
  have : 1 / 2 ^ 53 * Real.sqrt (ofDouble x) ≤ 1 / 2 ^ 53 * (S + e / (2 * q)) := by gcongr
  linarith

theorem Ap.square {P : Dbl.Platform} (h1 : P.SquareOk) (h2 : P.SquareReturns) {x : F64} {a e A g : ℝ} (hx : Ap x a e)
    (ha : |a| ≤ A) (hA : A + e ≤ 2 ^ 500)
    (hg : e * (2 * A + e) + 1 / 2 ^ 52 * (A + e) ^ 2 + 1 / 2 ^ 99 ≤ g) :
    ∃ y, P.square x = .ok y ∧ Ap y (a ^ 2) g := by
  have hv := hx.le ha
  have he := hx.nonneg
  obtain ⟨y, e1, e2⟩ := h2 x hx.1 (hv.trans hA)
  refine ⟨y, e1, e2, (abs_sub_tri _ (ofDouble x ^ 2) _).trans ?_⟩
  have h3 := h1 x y hx.1 e1 e2
  have h4 : |ofDouble x ^ 2 - a ^ 2| ≤ e * (2 * A + e) := by
    have : ofDouble x ^ 2 - a ^ 2 = (ofDouble x - a) * (ofDouble x + a) := by ring
    rw [this, abs_mul]
    have h5 : |ofDouble x + a| ≤ 2 * A + e := (abs_add_le _ _).trans (by linarith)
    exact mul_le_mul hx.2 h5 (abs_nonneg _) he
  have h6 : ofDouble x ^ 2 ≤ (A + e) ^ 2 := by
    rw [← sq_abs]; gcongr
  have := tiny
  have : 1 / 2 ^ 52 * ofDouble x ^ 2 ≤ 1 / 2 ^ 52 * (A + e) ^ 2 := by gcongr
  linarith

theorem Ap.sin {P : Dbl.Platform} (h1 : P.TrigOk) {x : F64} {a e g : ℝ} (hx : Ap x a e) (hg : e + 1 / 2 ^ 52 + 1 / 2 ^ 99 ≤ g) :
    Dbl.trig P.sin x = .ok (P.sin x) ∧ Ap (P.sin x) (Real.sin a) g := by
  obtain ⟨f, n⟩ := h1.sin x hx.1
  refine ⟨Dbl.trig_ok (fun h => hx.1 h.1) _, f, (abs_sub_tri _ (Real.sin (ofDouble x)) _).trans ?_⟩
  have h2 : |Real.sin (ofDouble x) - Real.sin a| ≤ e := (Real.abs_sin_sub_sin_le _ _).trans hx.2
  have h3 := Real.abs_sin_le_one (ofDouble x)
  have := tiny
  have : 1 / 2 ^ 52 * |Real.sin (ofDouble x)| ≤ 1 / 2 ^ 52 * 1 := by gcongr
  linarith

theorem Ap.cos {P : Dbl.Platform} (h1 : P.TrigOk) {x : F64} {a e g : ℝ} (hx : Ap x a e) (hg : e + 1 / 2 ^ 52 + 1 / 2 ^ 99 ≤ g) :
    Dbl.trig P.cos x = .ok (P.cos x) ∧ Ap (P.cos x) (Real.cos a) g := by
  obtain ⟨f, n⟩ := h1.cos x hx.1
  refine ⟨Dbl.trig_ok (fun h => hx.1 h.1) _, f, (abs_sub_tri _ (Real.cos (ofDouble x)) _).trans ?_⟩
  have h2 : |Real.cos (ofDouble x) - Real.cos a| ≤ e := (Real.abs_cos_sub_cos_le _ _).trans hx.2
  have h3 := Real.abs_cos_le_one (ofDouble x)
  have := tiny
  have : 1 / 2 ^ 52 * |Real.cos (ofDouble x)| ≤ 1 / 2 ^ 52 * 1 := by gcongr
  linarith

end Dis.Geo
