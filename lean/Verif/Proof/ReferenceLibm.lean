import Verif.Proof.Near
import Verif.Proof.Reference
import Verif.Spec.Libm

/-!
# A C library that meets the assumptions of `Verif/Spec/Libm.lean`
-/

set_option exponentiation.threshold 4096

namespace Dis.Geo

theorem reference_returns : reference.SquareReturns := by
  intro t ht h
  refine ⟨_, rfl, mul_finite_of ht ht ?_⟩
  rw [abs_mul]
  calc |ofDouble t| * |ofDouble t| ≤ 2 ^ 500 * 2 ^ 500 := by gcongr
    _ = 2 ^ 1000 := by rw [← pow_add]

/-- The reference library: nearly exact functions. -/
noncomputable def referenceLibm : Dbl.Libm where
  toPlatform := reference
  atan x := near (Real.arctan (ofDouble x))
  atan2 y x := near (atan2 (ofDouble y) (ofDouble x))

theorem referenceLibm_arc : referenceLibm.ArcOk where
  atan x _ := by
    refine near_spec (le_trans ?_ (show (4 : ℝ) ≤ 2 ^ 1000 by norm_num))
    have h1 := Real.arctan_lt_pi_div_two (ofDouble x)
    have h2 := Real.neg_pi_div_two_lt_arctan (ofDouble x)
    have h3 := Real.pi_le_four
    rw [abs_le]
    constructor <;> linarith
  atan2 y x _ _ _ := by
    refine near_spec (le_trans ?_ (show (4 : ℝ) ≤ 2 ^ 1000 by norm_num))
    exact (Complex.abs_arg_le_pi _).trans Real.pi_le_four

end Dis.Geo
