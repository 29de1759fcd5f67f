import Verif.Proof.CalcFacts
import Verif.Proof.Attitude

/-!
# What the tree of `opendis/DeadReckoning.py` does
-/

namespace Dis.Calc

open Dbl

set_option exponentiation.threshold 3000

attribute [local irreducible] num floatArray

theorem get_rotation_matrix_runs (M : Machine) (n : Nat) (psi theta phi : F64) :
    (calls .ieee M deadReckoning (n + 1)).fn N.get_rotation_matrix [.np psi, .np theta, .np phi]
      = up ((get_rotation_matrix M.toPlatform psi theta phi).map .mat) := by
  generalize h : Ops.ieee = O
  calc_ops h [get_rotation_matrix]
  calc_run h []

theorem drm_static_runs (M : Machine) (n : Nat) {pv ov : Val} {p o : Vec} (hp : floatArray .ieee pv = .ok (.arr p))
    (ho : floatArray .ieee ov = .ok (.arr o)) :
    (calls .ieee M deadReckoning (n + 2)).fn N.drm_static [pv, ov] = .ok (pair (drm_static p o)) := by
  generalize h : Ops.ieee = O at *
  calc_ops h [drm_static]
  calc_run h []

theorem num_0 : num 0 = F64.mk 0 0 0 := by decide +kernel

theorem zeros_num : zeros = fun _ => num 0 := by unfold zeros; rw [num_0]

theorem mag64_strict {a b : Nat} (h : a < b) : mag64 a < mag64 b := by
  unfold mag64
  have e1 := Nat.div_add_mod a (2 ^ 52)
  have e2 := Nat.div_add_mod b (2 ^ 52)
  have m1 : a % 2 ^ 52 < 2 ^ 52 := Nat.mod_lt _ (by decide)
  have m2 : b % 2 ^ 52 < 2 ^ 52 := Nat.mod_lt _ (by decide)
  generalize a / 2 ^ 52 = E at *
  generalize b / 2 ^ 52 = F at *
  generalize a % 2 ^ 52 = f at *
  generalize b % 2 ^ 52 = g at *
  rcases Nat.lt_trichotomy E F with hlt | heq | hgt
  · by_cases hE : E = 0
    · subst hE
      rw [if_pos rfl, if_neg (by omega)]
      simp only [Nat.max_eq_right (Nat.zero_le 1), Nat.sub_self, Nat.pow_zero, Nat.mul_one]
      have : 0 < 2 ^ (max F 1 - 1) := Nat.pow_pos (by decide)
      exact Nat.lt_of_lt_of_le (by omega) (Nat.le_mul_of_pos_right _ this)
    · rw [if_neg hE, if_neg (by omega), show max F 1 - 1 = (F - E - 1) + 1 + (max E 1 - 1) by omega, Nat.pow_add,
        ← Nat.mul_assoc]
      refine Nat.mul_lt_mul_of_pos_right ?_ (Nat.pow_pos (by decide))
      rw [Nat.pow_succ 2 (F - E - 1), ← Nat.mul_assoc]
      have : 0 < 2 ^ (F - E - 1) := Nat.pow_pos (by decide)
      have := Nat.le_mul_of_pos_right (2 ^ 52 + g) this
      omega
  · subst heq
    refine Nat.mul_lt_mul_of_pos_right ?_ (Nat.pow_pos (by decide))
    split <;> omega
  · omega

theorem absLt_gimbal (x : F64) : F64.absLt x gimbal = F64.lt (F64.abs x) gimbal := by
  have hg : gimbal.isNan = false := by decide +kernel
  have hu : gimbal.units = (gimbal.mag : Int) := by decide +kernel
  have he : gimbal.expo = 1003 := by decide +kernel
  have hf := F64.frac_lt gimbal
  have h1 := F64.expo_lt x
  have h2 := F64.frac_lt x
  have s0 : (F64.abs x).sign = 0 := F64.sign_mk (by omega) h1 h2
  have s1 : (F64.abs x).expo = x.expo := F64.expo_mk (by omega) h1 h2
  have s2 : (F64.abs x).frac = x.frac := F64.frac_mk (by omega) h1 h2
  have hm : (F64.abs x).units = (x.mag : Int) := by
    simp [F64.units, F64.mag, s0, s1, s2]
  unfold F64.absLt F64.lt
  rw [hg, hm, hu]
  unfold F64.isNan
  rw [s1, s2, F64.mag_eq, F64.mag_eq]
  by_cases hx : x.expo = 2047 ∧ x.frac ≠ 0
  · have : ¬ (x.expo * 2 ^ 52 + x.frac < gimbal.expo * 2 ^ 52 + gimbal.frac) := by omega
    rw [decide_eq_false this, decide_eq_true hx]; rfl
  · simp only [hx]
    have : (x.expo * 2 ^ 52 + x.frac < gimbal.expo * 2 ^ 52 + gimbal.frac)
        ↔ mag64 (x.expo * 2 ^ 52 + x.frac) < mag64 (gimbal.expo * 2 ^ 52 + gimbal.frac) := by
      refine ⟨mag64_strict, fun h => ?_⟩
      by_contra hle
      exact absurd (mag64_mono (Nat.le_of_not_lt hle)) (Nat.not_le.2 h)
    simp only [decide_false, Bool.not_false, Bool.true_and, Int.ofNat_lt, this]

/-- An array is its own conversion. -/
theorem floatArray_arr (O : Ops) (v : Vec) : floatArray O (.arr v) = .ok (.arr v) := by rw [floatArray.eq_def]; rfl

theorem drm_fpw_runs (M : Machine) (n : Nat) {pv vv ov : Val} {p v o : Vec} (dt : F64)
    (hp : floatArray .ieee pv = .ok (.arr p)) (hv : floatArray .ieee vv = .ok (.arr v)) (ho : floatArray .ieee ov = .ok (.arr o)) :
    (calls .ieee M deadReckoning (n + 2)).fn N.drm_fpw [pv, vv, .float dt, ov]
      = .ok (pair (drm_fpw p v dt o)) := by
  generalize h : Ops.ieee = O at *
  calc_ops h [drm_fpw, drm_rpw, rates, get_rotation_matrix, absLt_gimbal, ← num_0, zeros_num]
  calc_run h [floatArray_arr]

theorem drm_rpw_runs (M : Machine) (n : Nat) {pv vv ov wv : Val} {p v o w : Vec} (dt : F64)
    (hp : floatArray .ieee pv = .ok (.arr p)) (hv : floatArray .ieee vv = .ok (.arr v)) (ho : floatArray .ieee ov = .ok (.arr o)) (hw : floatArray .ieee wv = .ok (.arr w)) :
    (calls .ieee M deadReckoning (n + 2)).fn N.drm_rpw [pv, vv, .float dt, ov, wv]
      = up ((drm_rpw M.toPlatform p v dt o w).map pair) := by
  generalize h : Ops.ieee = O at *
  calc_ops h [drm_rpw, drm_rpw, rates, get_rotation_matrix, absLt_gimbal, ← num_0, zeros_num]
  calc_run h [floatArray_arr]

theorem drm_rvw_runs (M : Machine) (n : Nat) {pv vv av ov wv : Val} {p v a o w : Vec} (dt : F64)
    (hp : floatArray .ieee pv = .ok (.arr p)) (hv : floatArray .ieee vv = .ok (.arr v)) (ha : floatArray .ieee av = .ok (.arr a)) (ho : floatArray .ieee ov = .ok (.arr o)) (hw : floatArray .ieee wv = .ok (.arr w)) :
    (calls .ieee M deadReckoning (n + 3)).fn N.drm_rvw [pv, vv, av, .float dt, ov, wv]
      = up ((drm_rvw M.toPlatform p v a dt o w).map pair) := by
  generalize h : Ops.ieee = O at *
  calc_ops h [drm_rvw, drm_rpw, rates, get_rotation_matrix, absLt_gimbal, ← num_0, zeros_num]
  calc_run h [floatArray_arr]

theorem drm_fvw_runs (M : Machine) (n : Nat) {pv vv av ov : Val} {p v a o : Vec} (dt : F64)
    (hp : floatArray .ieee pv = .ok (.arr p)) (hv : floatArray .ieee vv = .ok (.arr v)) (ha : floatArray .ieee av = .ok (.arr a)) (ho : floatArray .ieee ov = .ok (.arr o)) :
    (calls .ieee M deadReckoning (n + 3)).fn N.drm_fvw [pv, vv, av, .float dt, ov]
      = up ((drm_fvw M.toPlatform p v a dt o).map pair) := by
  generalize h : Ops.ieee = O at *
  calc_ops h [drm_fvw, drm_rpw, rates, get_rotation_matrix, absLt_gimbal, ← num_0, zeros_num]
  calc_run h [floatArray_arr]

theorem drm_fpb_runs (M : Machine) (n : Nat) {pv vv ov : Val} {p v o : Vec} (dt : F64)
    (hp : floatArray .ieee pv = .ok (.arr p)) (hv : floatArray .ieee vv = .ok (.arr v)) (ho : floatArray .ieee ov = .ok (.arr o)) :
    (calls .ieee M deadReckoning (n + 3)).fn N.drm_fpb [pv, vv, .float dt, ov]
      = up ((drm_fpb M.toPlatform p v dt o).map pair) := by
  generalize h : Ops.ieee = O at *
  calc_ops h [drm_fpb, drm_rpw, rates, get_rotation_matrix, absLt_gimbal, ← num_0, zeros_num]
  calc_run h [floatArray_arr]

theorem drm_rpb_runs (M : Machine) (n : Nat) {pv vv ov wv : Val} {p v o w : Vec} (dt : F64)
    (hp : floatArray .ieee pv = .ok (.arr p)) (hv : floatArray .ieee vv = .ok (.arr v)) (ho : floatArray .ieee ov = .ok (.arr o)) (hw : floatArray .ieee wv = .ok (.arr w)) :
    (calls .ieee M deadReckoning (n + 3)).fn N.drm_rpb [pv, vv, .float dt, ov, wv]
      = up ((drm_rpb M.toPlatform p v dt o w).map pair) := by
  generalize h : Ops.ieee = O at *
  calc_ops h [drm_rpb, drm_rpw, rates, get_rotation_matrix, absLt_gimbal, ← num_0, zeros_num]
  calc_run h [floatArray_arr]

theorem drm_rvb_runs (M : Machine) (n : Nat) {pv vv av ov wv : Val} {p v a o w : Vec} (dt : F64)
    (hp : floatArray .ieee pv = .ok (.arr p)) (hv : floatArray .ieee vv = .ok (.arr v)) (ha : floatArray .ieee av = .ok (.arr a)) (ho : floatArray .ieee ov = .ok (.arr o)) (hw : floatArray .ieee wv = .ok (.arr w)) :
    (calls .ieee M deadReckoning (n + 3)).fn N.drm_rvb [pv, vv, av, .float dt, ov, wv]
      = up ((drm_rvb M.toPlatform p v a dt o w).map pair) := by
  generalize h : Ops.ieee = O at *
  calc_ops h [drm_rvb, drm_rpw, rates, get_rotation_matrix, absLt_gimbal, ← num_0, zeros_num]
  calc_run h [floatArray_arr]

theorem drm_fvb_runs (M : Machine) (n : Nat) {pv vv av ov : Val} {p v a o : Vec} (dt : F64)
    (hp : floatArray .ieee pv = .ok (.arr p)) (hv : floatArray .ieee vv = .ok (.arr v)) (ha : floatArray .ieee av = .ok (.arr a)) (ho : floatArray .ieee ov = .ok (.arr o)) :
    (calls .ieee M deadReckoning (n + 3)).fn N.drm_fvb [pv, vv, av, .float dt, ov]
      = up ((drm_fvb M.toPlatform p v a dt o).map pair) := by
  generalize h : Ops.ieee = O at *
  calc_ops h [drm_fvb, drm_rpw, rates, get_rotation_matrix, absLt_gimbal, ← num_0, zeros_num]
  calc_run h [floatArray_arr]

end Dis.Calc
