import Verif.Proof.Coordinates64
import Verif.Spec.CMath

/-!
# Approximations of bounded numbers
-/

set_option exponentiation.threshold 4096

namespace Dis.Geo

/-- A double within `e` of a number of magnitude at most `A`. -/
def Bd (x : F64) (a A e : ℝ) : Prop := Ap x a e ∧ |a| ≤ A

theorem Bd.num (n : ℕ) {r : ℝ} (h : n < 2 ^ 53) (hr : r = n) : Bd (Dbl.num n) r r 0 := by
  refine ⟨hr ▸ Ap.num h, ?_⟩
  rw [hr, abs_of_nonneg (Nat.cast_nonneg n)]

theorem Bd.mul {x y : F64} {a b A B C e f g : ℝ} (hx : Bd x a A e) (hy : Bd y b B f) (hC : A * B ≤ C)
    (hfin : (A + e) * (B + f) ≤ 2 ^ 1000)
    (hg : (1 + 1 / 2 ^ 53) * (e * B + A * f + e * f) + 1 / 2 ^ 53 * (A * B) + 1 / 2 ^ 100 ≤ g) :
    Bd (F64.mul x y) (a * b) C g := by
  refine ⟨hx.1.mul hy.1 hx.2 hy.2 hfin hg, le_trans ?_ hC⟩
  rw [abs_mul]
  exact mul_le_mul hx.2 hy.2 (abs_nonneg _) ((abs_nonneg _).trans hx.2)

theorem Bd.add_of {x y : F64} {a b A B S e f g : ℝ} (hx : Bd x a A e) (hy : Bd y b B f) (hS : |a + b| ≤ S)
    (hfin : S + e + f ≤ 2 ^ 1000) (hg : (1 + 1 / 2 ^ 53) * (e + f) + 1 / 2 ^ 53 * S ≤ g) :
    Bd (F64.add x y) (a + b) S g := ⟨hx.1.add hy.1 hS hfin hg, hS⟩

theorem Bd.sub_of {x y : F64} {a b A B S e f g : ℝ} (hx : Bd x a A e) (hy : Bd y b B f) (hS : |a - b| ≤ S)
    (hfin : S + e + f ≤ 2 ^ 1000) (hg : (1 + 1 / 2 ^ 53) * (e + f) + 1 / 2 ^ 53 * S ≤ g) :
    Bd (F64.sub x y) (a - b) S g := ⟨hx.1.sub hy.1 hS hfin hg, hS⟩

theorem Bd.add {x y : F64} {a b A B S e f g : ℝ} (hx : Bd x a A e) (hy : Bd y b B f) (hS : A + B ≤ S)
    (hfin : S + e + f ≤ 2 ^ 1000) (hg : (1 + 1 / 2 ^ 53) * (e + f) + 1 / 2 ^ 53 * S ≤ g) :
    Bd (F64.add x y) (a + b) S g := hx.add_of hy ((abs_add_le _ _).trans (by linarith [hx.2, hy.2])) hfin hg

theorem Bd.sub {x y : F64} {a b A B S e f g : ℝ} (hx : Bd x a A e) (hy : Bd y b B f) (hS : A + B ≤ S)
    (hfin : S + e + f ≤ 2 ^ 1000) (hg : (1 + 1 / 2 ^ 53) * (e + f) + 1 / 2 ^ 53 * S ≤ g) :
    Bd (F64.sub x y) (a - b) S g := hx.sub_of hy ((abs_sub _ _).trans (by linarith [hx.2, hy.2])) hfin hg

theorem Bd.divn {x : F64} {a A C e g r : ℝ} (hx : Bd x a A e) (n : ℕ) (h : n < 2 ^ 53) (hr : r = n) (h0 : 0 < r)
    (hC : A / r ≤ C) (hfin : A / r + e / r ≤ 2 ^ 1000)
    (hg : (1 + 1 / 2 ^ 53) * (e / r) + 1 / 2 ^ 53 * (A / r) + 1 / 2 ^ 100 ≤ g) :
    Bd (F64.div x (Dbl.num n)) (a / r) C g := by
  have hq : |a / r| ≤ A / r := by
    rw [abs_div, abs_of_pos h0]
    exact div_le_div_of_nonneg_right hx.2 h0.le
  have hn : Ap (Dbl.num n) r 0 := hr ▸ Ap.num h
  have := (hx.1.div hn (Q := A / r) (B := r) (g := g) hq (le_abs_self r) h0
    (by rw [mul_zero, add_zero, sub_zero]; exact hfin) (by rw [mul_zero, add_zero, sub_zero]; exact hg)).1
  exact ⟨this, hq.trans hC⟩

theorem Bd.square {P : Dbl.Platform} {x : F64} {a A C e g : ℝ} (hx : Bd x a A e) (h1 : P.SquareOk) (h2 : P.SquareReturns)
    (hC : A ^ 2 ≤ C) (hA : A + e ≤ 2 ^ 500) (hg : e * (2 * A + e) + 1 / 2 ^ 52 * (A + e) ^ 2 + 1 / 2 ^ 99 ≤ g) :
    ∃ y, P.square x = .ok y ∧ Bd y (a ^ 2) C g := by
  obtain ⟨y, e1, e2⟩ := hx.1.square h1 h2 hx.2 hA hg
  refine ⟨y, e1, e2, le_trans ?_ hC⟩
  rw [abs_pow]
  exact pow_le_pow_left₀ (abs_nonneg _) hx.2 2

theorem pow_near {x a A e : ℝ} (h : |x - a| ≤ e) (ha : |a| ≤ A) (n : ℕ) : |x ^ n - a ^ n| ≤ (A + e) ^ n - A ^ n := by
  have he := (abs_nonneg _).trans h
  have hA := (abs_nonneg _).trans ha
  have hx : |x| ≤ A + e := (abs_le_of_near h).trans (by linarith)
  induction n with
  | zero => simp
  | succ n ih =>
    have e1 : x ^ (n + 1) - a ^ (n + 1) = x * (x ^ n - a ^ n) + a ^ n * (x - a) := by ring
    have e2 : (A + e) ^ (n + 1) - A ^ (n + 1) = (A + e) * ((A + e) ^ n - A ^ n) + A ^ n * e := by ring
    rw [e1, e2]
    refine (abs_add_le _ _).trans ?_
    rw [abs_mul, abs_mul, abs_pow]
    gcongr

theorem Bd.pow {L : Dbl.CMath} {x : F64} {a A C e g : ℝ} (hx : Bd x a A e) (hp : L.PowOk) (n : ℕ) (h3 : 3 ≤ n) (h6 : n ≤ 6)
    (hC : A ^ n ≤ C) (hA : A + e ≤ 2 ^ 100)
    (hg : (A + e) ^ n - A ^ n + 1 / 2 ^ 52 * (A + e) ^ n + 1 / 2 ^ 99 ≤ g) :
    ∃ y, L.pow x n = .ok y ∧ Bd y (a ^ n) C g := by
  have hv := hx.1.le hx.2
  obtain ⟨y, e1, e2, e3⟩ := hp x n h3 h6 hx.1.1 (hv.trans hA)
  refine ⟨y, e1, ⟨e2, (abs_sub_tri _ (ofDouble x ^ n) _).trans ?_⟩, ?_⟩
  · have h4 := pow_near hx.1.2 hx.2 n
    have h5 : |ofDouble x ^ n| ≤ (A + e) ^ n := by
      rw [abs_pow]; exact pow_le_pow_left₀ (abs_nonneg _) hv n
    have := tiny
    have : 1 / 2 ^ 52 * |ofDouble x ^ n| ≤ 1 / 2 ^ 52 * (A + e) ^ n := by gcongr
    linarith
  · rw [abs_pow]
    exact (pow_le_pow_left₀ (abs_nonneg _) hx.2 n).trans hC

theorem Bd.sin {P : Dbl.Platform} {x : F64} {a A e g : ℝ} (hx : Bd x a A e) (h1 : P.TrigOk)
    (hg : e + 1 / 2 ^ 52 + 1 / 2 ^ 99 ≤ g) :
    Dbl.trig P.sin x = .ok (P.sin x) ∧ Bd (P.sin x) (Real.sin a) 1 g := by
  obtain ⟨e1, e2⟩ := hx.1.sin h1 hg
  exact ⟨e1, e2, Real.abs_sin_le_one _⟩

theorem Bd.cos {P : Dbl.Platform} {x : F64} {a A e g : ℝ} (hx : Bd x a A e) (h1 : P.TrigOk)
    (hg : e + 1 / 2 ^ 52 + 1 / 2 ^ 99 ≤ g) :
    Dbl.trig P.cos x = .ok (P.cos x) ∧ Bd (P.cos x) (Real.cos a) 1 g := by
  obtain ⟨e1, e2⟩ := hx.1.cos h1 hg
  exact ⟨e1, e2, Real.abs_cos_le_one _⟩

/-- `c` is a lower bound of the cosine. -/
theorem Bd.tan {P : Dbl.Platform} {x : F64} {a A e c E C g : ℝ} (hx : Bd x a A e) (h1 : P.TrigOk) (hc : c ≤ Real.cos a)
    (he : e < c) (hE : e / (c * (c - e)) ≤ E) (hC : 1 / c ≤ C) (hfin : C + E ≤ 2 ^ 1000)
    (hg : E + 1 / 2 ^ 52 * (C + E) + 1 / 2 ^ 99 ≤ g) :
    Dbl.trig P.tan x = .ok (P.tan x) ∧ Bd (P.tan x) (Real.tan a) C g := by
  have he0 := hx.1.nonneg
  have c0 : 0 < c := by linarith
  have cx : c - e ≤ Real.cos (ofDouble x) := by
    have := (Real.abs_cos_sub_cos_le (ofDouble x) a).trans hx.1.2
    linarith [(abs_le.1 this).1]
  have cx0 : 0 < Real.cos (ofDouble x) := by linarith
  have ca0 : 0 < Real.cos a := by linarith
  have t1 : |Real.tan a| ≤ C := by
    rw [Real.tan_eq_sin_div_cos, abs_div, abs_of_pos ca0]
    refine le_trans ?_ hC
    exact div_le_div₀ zero_le_one (Real.abs_sin_le_one _) c0 hc
  have t2 : |Real.tan (ofDouble x) - Real.tan a| ≤ E := by
    have e1 : Real.tan (ofDouble x) - Real.tan a = Real.sin (ofDouble x - a) / (Real.cos a * Real.cos (ofDouble x)) := by
      rw [Real.tan_eq_sin_div_cos, Real.tan_eq_sin_div_cos, Real.sin_sub, div_sub_div _ _ cx0.ne' ca0.ne']
      ring_nf
    rw [e1, abs_div, abs_of_pos (mul_pos ca0 cx0)]
    refine le_trans ?_ hE
    refine div_le_div₀ he0 ?_ (mul_pos c0 (by linarith)) (mul_le_mul hc cx (by linarith) ca0.le)
    have := Real.abs_sin_sub_sin_le (ofDouble x - a) 0
    rw [Real.sin_zero, sub_zero, sub_zero] at this
    exact this.trans hx.1.2
  have t3 : |Real.tan (ofDouble x)| ≤ C + E := (abs_le_of_near t2).trans (by linarith)
  obtain ⟨f, n⟩ := h1.tan x hx.1.1 (t3.trans hfin)
  refine ⟨Dbl.trig_ok (fun h => hx.1.1 h.1) _, ⟨f, (abs_sub_tri _ (Real.tan (ofDouble x)) _).trans ?_⟩, t1⟩
  have := tiny
  have : 1 / 2 ^ 52 * |Real.tan (ofDouble x)| ≤ 1 / 2 ^ 52 * (C + E) := by gcongr
  linarith

end Dis.Geo
