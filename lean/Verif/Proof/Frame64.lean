import Verif.Proof.Approx
import Verif.Proof.Rotations
import Verif.Proof.Coordinates64
import Verif.Spec.Libm

/-!
# Products and rotations of vectors in doubles
-/

set_option exponentiation.threshold 4096

namespace Dis.Geo

open Matrix

theorem term_near {a b x y d f A B : ℝ} (hx : |x - a| ≤ d) (hy : |y - b| ≤ f) (ha : |a| ≤ A) (hb : |b| ≤ B) :
    |x * y - a * b| ≤ d * (B + f) + A * f ∧ |x * y| ≤ (A + d) * (B + f) := by
  have hd : 0 ≤ d := (abs_nonneg _).trans hx
  have hf : 0 ≤ f := (abs_nonneg _).trans hy
  have hA : 0 ≤ A := (abs_nonneg _).trans ha
  have h1 : |y| ≤ B + f := (abs_le_of_near hy).trans (by linarith)
  have h2 : |x| ≤ A + d := (abs_le_of_near hx).trans (by linarith)
  refine ⟨?_, ?_⟩
  · rw [show x * y - a * b = (x - a) * y + a * (y - b) by ring]
    refine (abs_add_le _ _).trans ?_
    rw [abs_mul, abs_mul]
    exact add_le_add (mul_le_mul hx h1 (abs_nonneg _) hd) (mul_le_mul ha hy (abs_nonneg _) hA)
  · rw [abs_mul]
    exact mul_le_mul h2 h1 (abs_nonneg _) (by linarith)

/-- The error of a sum of three products with an error of its own. -/
theorem sum3_near {r a0 a1 a2 b0 b1 b2 x0 x1 x2 y0 y1 y2 d f A B g : ℝ}
    (h : |r - (x0 * y0 + x1 * y1 + x2 * y2)| ≤ 1 / 2 ^ 50 * (|x0 * y0| + |x1 * y1| + |x2 * y2|) + 1 / 2 ^ 1070)
    (hx0 : |x0 - a0| ≤ d) (hx1 : |x1 - a1| ≤ d) (hx2 : |x2 - a2| ≤ d)
    (hy0 : |y0 - b0| ≤ f) (hy1 : |y1 - b1| ≤ f) (hy2 : |y2 - b2| ≤ f)
    (ha0 : |a0| ≤ A) (ha1 : |a1| ≤ A) (ha2 : |a2| ≤ A) (hb0 : |b0| ≤ B) (hb1 : |b1| ≤ B) (hb2 : |b2| ≤ B)
    (hg : 3 * (d * (B + f) + A * f) + 3 / 2 ^ 50 * ((A + d) * (B + f)) + 1 / 2 ^ 99 ≤ g) :
    |r - (a0 * b0 + a1 * b1 + a2 * b2)| ≤ g := by
  obtain ⟨p0, q0⟩ := term_near hx0 hy0 ha0 hb0
  obtain ⟨p1, q1⟩ := term_near hx1 hy1 ha1 hb1
  obtain ⟨p2, q2⟩ := term_near hx2 hy2 ha2 hb2
  have ht : (1 : ℝ) / 2 ^ 1070 ≤ 1 / 2 ^ 99 :=
    one_div_le_one_div_of_le (by positivity) (pow_le_pow_right₀ (by norm_num) (by norm_num))
  have hs : |(x0 * y0 + x1 * y1 + x2 * y2) - (a0 * b0 + a1 * b1 + a2 * b2)| ≤ 3 * (d * (B + f) + A * f) := by
    rw [show (x0 * y0 + x1 * y1 + x2 * y2) - (a0 * b0 + a1 * b1 + a2 * b2)
      = (x0 * y0 - a0 * b0) + (x1 * y1 - a1 * b1) + (x2 * y2 - a2 * b2) by ring]
    refine (abs_add_le _ _).trans ?_
    have := abs_add_le (x0 * y0 - a0 * b0) (x1 * y1 - a1 * b1)
    linarith
  have hr : (1 : ℝ) / 2 ^ 50 * (|x0 * y0| + |x1 * y1| + |x2 * y2|) ≤ 3 / 2 ^ 50 * ((A + d) * (B + f)) := by
    rw [show (3 : ℝ) / 2 ^ 50 * ((A + d) * (B + f)) = 1 / 2 ^ 50 * (3 * ((A + d) * (B + f))) by ring]
    exact mul_le_mul_of_nonneg_left (by linarith) (by positivity)
  have := abs_sub_le r (x0 * y0 + x1 * y1 + x2 * y2) (a0 * b0 + a1 * b1 + a2 * b2)
  linarith

/-- `dot` of a matrix and a vector. -/
theorem matvec_near {P : Dbl.Platform} (h5 : P.MatvecOk) (h6 : P.MatvecFinite) {R' : Dbl.Mat} {v' : Dbl.Vec} {R : Mat}
    {v : Vec} {d f B g : ℝ} (hR : ∀ i j, Ap (R' i j) (R i j) d) (hv : ∀ j, Ap (v' j) (v j) f)
    (bR : ∀ i j, |R i j| ≤ 1) (bv : ∀ j, |v j| ≤ B) (hd : d ≤ 1) (hB : B + f ≤ 2 ^ 400)
    (hg : 3 * (d * (B + f) + 1 * f) + 3 / 2 ^ 50 * ((1 + d) * (B + f)) + 1 / 2 ^ 99 ≤ g) (i : Fin 3) :
    Ap (P.matvec R' v' i) ((R *ᵥ v) i) g := by
  have hfin := h6 R' v' i fun j => ⟨(hR i j).1, ((hR i j).le (bR i j)).trans (by
    have : (2 : ℝ) ≤ 2 ^ 400 := by norm_num
    linarith), (hv j).1, ((hv j).le (bv j)).trans hB⟩
  refine ⟨hfin, ?_⟩
  rw [mulVec, dotProduct, Fin.sum_univ_three]
  exact sum3_near (h5 R' v' i hfin).2 (hR i 0).2 (hR i 1).2 (hR i 2).2 (hv 0).2 (hv 1).2 (hv 2).2
    (bR i 0) (bR i 1) (bR i 2) (bv 0) (bv 1) (bv 2) hg

/-- `dot` of two vectors. -/
theorem dot_near {L : Dbl.Numpy} (h7 : L.DotOk) {u' v' : Dbl.Vec} {u v : Vec} {d f g : ℝ} (hu : ∀ j, Ap (u' j) (u j) d)
    (hv : ∀ j, Ap (v' j) (v j) f) (bu : ∀ j, |u j| ≤ 1) (bv : ∀ j, |v j| ≤ 1) (hd : d ≤ 1) (hf : f ≤ 1)
    (hg : 3 * (d * (1 + f) + 1 * f) + 3 / 2 ^ 50 * ((1 + d) * (1 + f)) + 1 / 2 ^ 99 ≤ g) :
    Ap (L.dot u' v') (u ⬝ᵥ v) g := by
  have two : (2 : ℝ) ≤ 2 ^ 400 := by norm_num
  obtain ⟨a, b⟩ := h7 u' v' fun j => ⟨(hu j).1, ((hu j).le (bu j)).trans (by linarith), (hv j).1,
    ((hv j).le (bv j)).trans (by linarith)⟩
  refine ⟨a, ?_⟩
  rw [dotProduct, Fin.sum_univ_three]
  exact sum3_near b (hu 0).2 (hu 1).2 (hu 2).2 (hv 0).2 (hv 1).2 (hv 2).2 (bu 0) (bu 1) (bu 2) (bv 0) (bv 1) (bv 2) hg

/-! ## Rotations -/

/-- The skew-symmetric matrix of `rotate_3x3`. -/
def skewR (n : Vec) : Mat := !![0, -n 2, n 1; n 2, 0, -n 0; -n 1, n 0, 0]

theorem rotate_entry (t : ℝ) (n : Vec) (i j : Fin 3) : rotate_3x3 t n i j =
    (1 - Real.cos t) * (n j * n i) + Real.cos t * (1 : Mat) i j + Real.sin t * skewR n i j := by
  unfold rotate_3x3 skewR transpose3
  fin_cases i <;> fin_cases j <;> simp

theorem unit_near (i j : Fin 3) : Ap (Dbl.unit i j) ((1 : Mat) i j) 0 := by
  unfold Dbl.unit
  rw [Matrix.one_apply]
  by_cases h : i = j
  · rw [if_pos h, if_pos h.symm]
    exact (Ap.num (n := 1) (by decide)).to (by norm_num) (le_refl (0 + 0)) |>.mono (by norm_num)
  · rw [if_neg h, if_neg (Ne.symm h)]
    exact (Ap.num (n := 0) (by decide)).to (by norm_num) (le_refl (0 + 0)) |>.mono (by norm_num)

theorem skew_near {n' : Dbl.Vec} {n : Vec} {e : ℝ} (hn : ∀ j, Ap (n' j) (n j) e) (i j : Fin 3) :
    Ap (Dbl.skew n' i j) (skewR n i j) e := by
  have h0 : Ap (Dbl.num 0) 0 e :=
    ((Ap.num (n := 0) (by decide)).to (b := 0) (f := 0) (by norm_num) (le_refl (0 + 0))).mono
      (by rw [add_zero]; exact (hn 0).nonneg)
  fin_cases i <;> fin_cases j
  exacts [h0, (hn 2).neg, hn 1, hn 2, h0, (hn 0).neg, (hn 1).neg, hn 0, h0]

theorem skewR_le {n : Vec} (hn : ∀ j, |n j| ≤ 1) (i j : Fin 3) : |skewR n i j| ≤ 1 := by
  have h0 : |(0 : ℝ)| ≤ 1 := by norm_num
  have hneg : ∀ j, |-n j| ≤ 1 := fun j => by rw [abs_neg]; exact hn j
  fin_cases i <;> fin_cases j
  exacts [h0, hneg 2, hn 1, hn 2, h0, hneg 0, hneg 1, hn 0, h0]

theorem one_entry_le (i j : Fin 3) : |(1 : Mat) i j| ≤ 1 := by
  rw [Matrix.one_apply]; split <;> norm_num

theorem rotate_near {P : Dbl.Platform} (h3 : P.TrigOk) {t : F64} (ht : t.Finite) {n' : Dbl.Vec} {n : Vec} {e : ℝ}
    (hn : ∀ j, Ap (n' j) (n j) e) (bn : ∀ j, |n j| ≤ 1) (he : e ≤ 1e-3) :
    ∃ R', Dbl.rotate_3x3 P t n' = .ok R' ∧ ∀ i j, Ap (R' i j) (rotate_3x3 (ofDouble t) n i j) (5.1 * e + 3e-15) := by
  have e0 := (hn 0).nonneg
  obtain ⟨ec, hc⟩ := Ap.cos h3 (Ap.self ht) (g := 2.3e-16) (by norm_num)
  obtain ⟨es, hs⟩ := Ap.sin h3 (Ap.self ht) (g := 2.3e-16) (by norm_num)
  refine ⟨_, by rw [Dbl.rotate_3x3, ec, es]; rfl, fun i j => ?_⟩
  rw [rotate_entry]
  have c1 := Real.abs_cos_le_one (ofDouble t)
  have s1 := Real.abs_sin_le_one (ofDouble t)
  have c2 : |1 - Real.cos (ofDouble t)| ≤ 2 := by
    have := abs_le.1 c1
    rw [abs_le]; constructor <;> linarith
  have one : Ap (Dbl.num 1) 1 0 :=
    ((Ap.num (n := 1) (by decide)).to (b := 1) (f := 0) (by norm_num) (le_refl (0 + 0))).mono (by norm_num)
  have nn : |n j * n i| ≤ 1 := by
    rw [abs_mul]; exact mul_le_one₀ (bn j) (abs_nonneg _) (bn i)
  have a1 : Ap (F64.sub (Dbl.num 1) (P.cos t)) (1 - Real.cos (ofDouble t)) 4.6e-16 :=
    one.sub hc c2 (by norm_num) (by norm_num)
  have a2 : Ap (F64.mul (n' j) (n' i)) (n j * n i) (2.01 * e + 1.2e-16) :=
    (hn j).mul (hn i) (bn j) (bn i) (by norm_num at he ⊢; nlinarith) (by norm_num at he ⊢; nlinarith)
  have a3 := a1.mul a2 c2 nn (g := 4.03 * e + 1e-15) (by norm_num at he ⊢; nlinarith) (by norm_num at he ⊢; nlinarith)
  have a4 := hc.mul (unit_near i j) c1 (one_entry_le i j) (g := 3.5e-16) (by norm_num) (by norm_num)
  have p1 : |(1 - Real.cos (ofDouble t)) * (n j * n i)| ≤ 2 := by
    rw [abs_mul]; exact (mul_le_mul c2 nn (abs_nonneg _) (by norm_num)).trans (by norm_num)
  have p2 : |Real.cos (ofDouble t) * (1 : Mat) i j| ≤ 1 := by
    rw [abs_mul]; exact mul_le_one₀ c1 (abs_nonneg _) (one_entry_le i j)
  have p3 : |Real.sin (ofDouble t) * skewR n i j| ≤ 1 := by
    rw [abs_mul]; exact mul_le_one₀ s1 (abs_nonneg _) (skewR_le bn i j)
  have p4 := (abs_add_le ((1 - Real.cos (ofDouble t)) * (n j * n i)) (Real.cos (ofDouble t) * (1 : Mat) i j)).trans
    (add_le_add p1 p2)
  have a5 := a3.add a4 p4 (g := 4.04 * e + 1.8e-15) (by norm_num at he ⊢; linarith) (by norm_num at he ⊢; linarith)
  have a6 := hs.mul (skew_near hn i j) s1 (skewR_le bn i j) (g := 1.01 * e + 4e-16) (by norm_num at he ⊢; nlinarith)
    (by norm_num at he ⊢; nlinarith)
  exact a5.add a6 ((abs_add_le _ _).trans (add_le_add p4 p3)) (by norm_num at he ⊢; linarith)
    (by norm_num at he ⊢; linarith)

theorem IsRotation.entry_le {R : Mat} (h : IsRotation R) (i j : Fin 3) : |R i j| ≤ 1 := by
  have := congrFun (congrFun h.1 i) i
  rw [Matrix.mul_apply, Fin.sum_univ_three, Matrix.one_apply_eq] at this
  simp only [Matrix.transpose_apply] at this
  rw [← sq_le_one_iff_abs_le_one]
  have q0 := sq_nonneg (R i 0)
  have q1 := sq_nonneg (R i 1)
  have q2 := sq_nonneg (R i 2)
  fin_cases j
  · show R i 0 ^ 2 ≤ 1
    linarith
  · show R i 1 ^ 2 ≤ 1
    linarith
  · show R i 2 ^ 2 ≤ 1
    linarith

/-- Turning a vector about an axis, both with errors. -/
theorem turn_near {P : Dbl.Platform} (h3 : P.TrigOk) (h5 : P.MatvecOk) (h6 : P.MatvecFinite) {t : F64} (ht : t.Finite)
    {n' v' : Dbl.Vec} {n v : Vec} {e f g : ℝ} (hn : ∀ j, Ap (n' j) (n j) e) (hl : len n = 1) (bn : ∀ j, |n j| ≤ 1)
    (he : e ≤ 1e-3) {R' : Dbl.Mat} (hR : Dbl.rotate_3x3 P t n' = .ok R') (hv : ∀ j, Ap (v' j) (v j) f)
    (bv : ∀ j, |v j| ≤ 1) (hf : f ≤ 1e-3) (hg : 15.4 * e + 3.1 * f + 1.2e-14 ≤ g) (i : Fin 3) :
    Ap (P.matvec R' v' i) ((rotate_3x3 (ofDouble t) n *ᵥ v) i) g := by
  obtain ⟨R'', e'', hR''⟩ := rotate_near h3 ht hn bn he
  rw [hR] at e''
  injection e'' with e''
  subst e''
  have e0 := (hn 0).nonneg
  have f0 := (hv 0).nonneg
  refine matvec_near h5 h6 hR'' hv (fun i j => (isRotation_rotate _ n hl).entry_le i j) bv ?_ ?_ ?_ i
  · norm_num at he ⊢; linarith
  · norm_num at hf ⊢; linarith
  · refine le_trans ?_ hg
    norm_num at he hf ⊢
    nlinarith

end Dis.Geo
