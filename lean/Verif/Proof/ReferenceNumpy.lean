import Mathlib.Analysis.Real.Pi.Bounds
import Verif.Proof.ReferenceLibm
import Verif.Proof.Near
import Verif.Proof.Round64

/-!
# The reference library meets the remaining assumptions
-/

set_option exponentiation.threshold 4096

namespace Dis.Geo

/-- The reference library with a product of vectors. -/
noncomputable def referenceNumpy : Dbl.Numpy where
  toLibm := referenceLibm
  dot := dot

theorem reference_nonneg : reference.SquareNonneg := by
  intro x s _ hs hf
  injection hs with hs
  subst hs
  have h := val_mul' hf
  have h1 : 0 ≤ ofDouble x * ofDouble x := mul_self_nonneg _
  rw [abs_of_nonneg h1] at h
  have h2 := (abs_le.1 h).1
  have h3 : -eta ≤ ofDouble (F64.mul x x) := by
    have : 1 / 2 ^ 53 * (ofDouble x * ofDouble x) ≤ ofDouble x * ofDouble x := by
      have : (1 : ℝ) / 2 ^ 53 ≤ 1 := by norm_num
      nlinarith
    linarith
  unfold ofDouble at h3 ⊢
  have h4 : (1 : ℝ) / 2 ^ 1074 = 2 * eta := eta_two
  have h5 : ((F64.mul x x).units : ℝ) / 2 ^ 1074 = (F64.mul x x).units * (2 * eta) := by rw [← h4]; ring
  rw [h5] at h3 ⊢
  have h6 := eta_pos
  have h7 : (-1 : ℝ) < (F64.mul x x).units := by
    by_contra hc
    push Not at hc
    have := mul_le_mul_of_nonneg_right hc (show 0 ≤ 2 * eta by linarith)
    linarith
  have h8 : (-1 : ℤ) < (F64.mul x x).units := by exact_mod_cast h7
  have h9 : (0 : ℝ) ≤ (F64.mul x x).units := by
    have : (0 : ℤ) ≤ (F64.mul x x).units := by omega
    exact_mod_cast this
  exact mul_nonneg h9 (by linarith)

theorem referenceLibm_arc_zero : referenceLibm.ArcZero := by
  intro y x _ _ hy
  have hb : |Geo.atan2 (ofDouble y) (ofDouble x)| ≤ Real.pi := Complex.abs_arg_le_pi _
  have hs := near_spec (c := Geo.atan2 (ofDouble y) (ofDouble x))
    (hb.trans (Real.pi_le_four.trans (show (4 : ℝ) ≤ 2 ^ 1000 by norm_num)))
  refine ⟨hs.1, ?_, fun _ => ⟨_, Or.inl rfl, by rw [← hy]; exact hs.2⟩⟩
  have h1 := abs_le.1 hs.2
  have h2 := abs_le.1 hb
  have h3 := Real.pi_lt_d6
  have h4 : (1 : ℝ) / 2 ^ 1074 ≤ 0.000001 := by norm_num
  have h5 : (1 : ℝ) / 2 ^ 52 * |Geo.atan2 (ofDouble y) (ofDouble x)| ≤ 0.000001 := by
    have := mul_le_mul_of_nonneg_left hb (show (0 : ℝ) ≤ 1 / 2 ^ 52 by positivity)
    norm_num at this h3 ⊢
    linarith
  show |ofDouble (near _)| ≤ 3.1416
  rw [abs_le]
  norm_num at h3 h4 h5 ⊢
  constructor <;> linarith

theorem dot_finite {u v : Dbl.Vec}
    (h : ∀ j, (u j).Finite ∧ |ofDouble (u j)| ≤ 2 ^ 400 ∧ (v j).Finite ∧ |ofDouble (v j)| ≤ 2 ^ 400) :
    (dot u v).Finite := by
  have term : ∀ j, (F64.mul (u j) (v j)).Finite ∧ |ofDouble (F64.mul (u j) (v j))| ≤ 2 ^ 801 := by
    intro j
    obtain ⟨f1, b1, f2, b2⟩ := h j
    have hp : |ofDouble (u j) * ofDouble (v j)| ≤ 2 ^ 800 := by
      rw [abs_mul]
      exact (mul_le_mul b1 b2 (abs_nonneg _) (by positivity)).trans (by norm_num)
    have fin := mul_finite_of f1 f2 (hp.trans (by norm_num))
    refine ⟨fin, ?_⟩
    have h1 := abs_le.1 (val_mul' fin)
    have h2 := abs_le.1 hp
    have h3 : eta ≤ 1 := by
      have := eta_two
      have h4 : (1 : ℝ) / 2 ^ 1074 ≤ 1 := by norm_num
      have := eta_pos
      linarith
    have h4 : (1 : ℝ) / 2 ^ 53 * |ofDouble (u j) * ofDouble (v j)| ≤ 1 / 2 ^ 53 * 2 ^ 800 := by gcongr
    have h5 : (1 : ℝ) / 2 ^ 53 * 2 ^ 800 + 1 + 2 ^ 800 ≤ 2 ^ 801 := by norm_num
    rw [abs_le]
    generalize (1 : ℝ) / 2 ^ 53 * 2 ^ 800 = A at *
    generalize (2 : ℝ) ^ 800 = B at *
    generalize (2 : ℝ) ^ 801 = C at *
    constructor <;> linarith [h1.1, h1.2, h2.1, h2.2]
  have k : (2 : ℝ) ^ 801 * 8 ≤ 2 ^ 1000 := by norm_num
  have k0 : (0 : ℝ) < 2 ^ 801 := by positivity
  have a0 := abs_le.1 (term 0).2
  have a1 := abs_le.1 (term 1).2
  have a2 := abs_le.1 (term 2).2
  have f01 := add_finite_of (term 0).1 (term 1).1 (by
    rw [abs_le]
    generalize (2 : ℝ) ^ 1000 = B at *
    generalize (2 : ℝ) ^ 801 = C at *
    constructor <;> linarith)
  refine add_finite_of f01 (term 2).1 ?_
  have w := val_add f01
  have hs : |ofDouble (F64.mul (u 0) (v 0)) + ofDouble (F64.mul (u 1) (v 1))| ≤ 2 * 2 ^ 801 := by
    rw [abs_le]
    generalize (2 : ℝ) ^ 801 = C at *
    constructor <;> linarith
  have hr : (1 : ℝ) / 2 ^ 53 * |ofDouble (F64.mul (u 0) (v 0)) + ofDouble (F64.mul (u 1) (v 1))| ≤ 2 * 2 ^ 801 := by
    refine le_trans ?_ hs
    have : (1 : ℝ) / 2 ^ 53 ≤ 1 := by norm_num
    exact mul_le_of_le_one_left (abs_nonneg _) this
  have v' := abs_le.1 w
  have hs' := abs_le.1 hs
  rw [abs_le]
  generalize (2 : ℝ) ^ 1000 = B at *
  generalize (2 : ℝ) ^ 801 = C at *
  constructor <;> linarith [v'.1, v'.2, hs'.1, hs'.2]

theorem reference_matvec_finite : reference.MatvecFinite := fun _ _ _ h => dot_finite h

theorem referenceNumpy_dot : referenceNumpy.DotOk := by
  intro u v h
  have f := dot_finite h
  refine ⟨f, ?_⟩
  have e : (1 : ℝ) / 2 ^ 1070 = 32 * eta := by
    rw [show (1070 : ℕ) = 1075 - 5 from rfl, eta_pow 5 (by norm_num)]; norm_num
  rw [e]
  exact (dot_error f).2

theorem referenceNumpy_accurate : referenceNumpy.Accurate where
  square := reference_square
  squareReturns := reference_returns
  squareNonneg := reference_nonneg
  squareZero := referenceLibm_zero
  trig := reference_trig
  arc := referenceLibm_arc
  arcZero := referenceLibm_arc_zero
  matvec := reference_matvec
  matvecFinite := reference_matvec_finite
  dot := referenceNumpy_dot

end Dis.Geo
