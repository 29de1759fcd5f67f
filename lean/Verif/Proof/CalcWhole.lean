import Verif.Proof.CalcAngles
import Verif.Proof.HeapNumbers
import Verif.Spec.CalcWhole

/-!
# What the trees of `RangeCoordinates.py` do with whole numbers
-/

set_option exponentiation.threshold 3000

namespace Dis

section
open F64

/-! ## Products of whole numbers as doubles -/

theorem rne_scale (x s k : Nat) : rne (x * 2 ^ k) (s + k) = rne x s := by
  have hp : 0 < 2 ^ k := Nat.pow_pos (by decide)
  unfold rne
  rw [Nat.pow_add, Nat.mul_div_mul_right _ _ hp, Nat.mul_mod_mul_right]
  have e1 : 2 * (x % 2 ^ s * 2 ^ k) = 2 * (x % 2 ^ s) * 2 ^ k := by rw [Nat.mul_assoc]
  simp only [e1, gt_iff_lt, Nat.mul_lt_mul_right hp, Nat.mul_left_inj hp.ne']

theorem roundMag_scale (x k : Nat) : roundMag (x * 2 ^ k) k = roundMag x 0 := by
  rcases Nat.eq_zero_or_pos x with rfl | hx
  · rw [Nat.zero_mul, roundMag_zero, roundMag_zero]
  · have hl : (x * 2 ^ k).log2 = x.log2 + k := by
      rw [Nat.log2_eq_iff (Nat.mul_pos hx (Nat.pow_pos (by decide))).ne', Nat.pow_add, show x.log2 + k + 1 = (x.log2 + 1) + k by omega, Nat.pow_add]
      exact ⟨Nat.mul_le_mul_right _ (Nat.log2_self_le hx.ne'), Nat.mul_lt_mul_of_pos_right Nat.lt_log2_self (Nat.pow_pos (by decide))⟩
    unfold roundMag
    dsimp only
    rw [hl, show max k (x.log2 + k - 52) = max 0 (x.log2 - 52) + k by omega, rne_scale]
    congr 2
    omega

theorem ofInt_mul {a : Int} {b : Nat} {x y : F64} (ha : a.natAbs ≤ 2 ^ 53) (hb : b ≤ 2 ^ 53) (hx : ofInt a = some x)
    (hy : ofInt b = some y) (hp : 0 < b) : ofInt (a * b) = some (F64.mul x y) := by
  obtain ⟨x', ex, ux⟩ := ofInt_exact ha
  obtain ⟨y', ey, uy⟩ := ofInt_exact (n := b) (by simpa using hb)
  cases hx.symm.trans ex
  cases hy.symm.trans ey
  have hs {n : Int} {x : F64} (h : ofInt n = some x) : x.sign = if n < 0 then 1 else 0 := by
    unfold ofInt at h
    dsimp only at h
    generalize roundMag (n.natAbs * 2 ^ 1074) 0 = m at h
    by_cases hm : m < 2047 * 2 ^ 52
    · rw [if_pos hm] at h; cases h; exact Dbl.sign_ofMag _ _ (by split <;> decide)
    · rw [if_neg hm] at h; cases h
  have fx := (ofInt_form hx).1
  have fy := (ofInt_form hy).1
  have mx : x.mag = a.natAbs * 2 ^ 1074 := by
    rw [← F64.units_abs, ux, Int.natAbs_mul, Int.natAbs_pow, show (2 : Int).natAbs = 2 from rfl]
  have my : y.mag = b * 2 ^ 1074 := by
    rw [← F64.units_abs, uy, Int.natAbs_mul, Int.natAbs_pow, show (2 : Int).natAbs = 2 from rfl, Int.natAbs_natCast]
  unfold F64.Finite at fx fy
  have e1 : F64.mul x y = ofMag (if a < 0 then 1 else 0) (roundMag (a.natAbs * b * 2 ^ 1074) 0) := by
    unfold F64.mul
    dsimp only
    rw [if_neg (by rintro (h | h); exact fx h.1; exact fy h.1), if_neg (by rintro (h | h); exact fx h; exact fy h), hs hx, hs hy,
      mx, my]
    have e0 : ∀ P : Nat, a.natAbs * P * (b * P) = a.natAbs * b * P * P := fun P => by ac_rfl
    rw [if_neg (by omega : ¬ (b : Int) < 0), e0, roundMag_scale]
    congr 1
    by_cases h : a < 0
    · rw [if_pos h]
    · rw [if_neg h]
  have e2 : (a * b).natAbs = a.natAbs * b := by rw [Int.natAbs_mul]; rfl
  have e3 : a * b < 0 ↔ a < 0 := ⟨fun h => by by_contra hc; have := Int.mul_nonneg (Int.not_lt.mp hc) (Int.natCast_nonneg b); omega,
    fun h => Int.mul_neg_of_neg_of_pos h (by omega)⟩
  have e4 := roundMag_overflow (a.natAbs * b * 2 ^ 1074) 0
  have e5 : a.natAbs * b * 2 ^ 1074 < (2 ^ 54 - 1) * 2 ^ (2044 + 0) := by
    have : a.natAbs * b ≤ 2 ^ 53 * 2 ^ 53 := Nat.mul_le_mul ha hb
    calc a.natAbs * b * 2 ^ 1074 ≤ 2 ^ 53 * 2 ^ 53 * 2 ^ 1074 := Nat.mul_le_mul_right _ this
      _ < _ := by decide +kernel
  unfold ofInt
  dsimp only
  rw [e2, if_pos (by omega), e1]
  simp only [e3]
end

namespace Calc
open Dbl
attribute [local irreducible] num classAttr

theorem deg2rad_number {O : Ops} (h : Ops.ieee = O) (M : Machine) (n : Nat) {v : Val} {x : F64} (hv : IsNumber v x) :
    (calls O M rangeCoordinates (n + 1)).fn N.deg2rad [v] = .ok (.float (deg2rad x)) := by
  rcases hv with rfl | ⟨z, rfl, hz⟩
  · exact deg2rad_runs h M n x
  · rw [deg2rad_int_runs h M n z, hz]; rfl

theorem fromInt_mul {a : Int} {x : F64} (ha : a.natAbs ≤ 2 ^ 53) (hx : fromInt a = .ok x) :
    fromInt (a * Int.ofNat 180) = .ok (F64.mul x (num 180)) := by
  have h180 : F64.ofInt (180 : Nat) = some (num 180) := by delta F64.ofInt num; decide +kernel
  have h : F64.ofInt a = some x := by
    unfold fromInt at hx
    cases e : F64.ofInt a with
    | none => rw [e] at hx; cases hx
    | some y => rw [e] at hx; cases hx; rfl
  unfold fromInt
  rw [show Int.ofNat 180 = ((180 : Nat) : Int) from rfl, ofInt_mul ha (by decide) h h180 (by decide)]
  rfl

theorem rad2deg_number {O : Ops} (h : Ops.ieee = O) (M : Machine) (n : Nat) {v : Val} {x : F64} (hv : IsNumber v x)
    (hs : Small v) : (calls O M rangeCoordinates (n + 1)).fn N.rad2deg [v] = .ok (.float (rad2deg x)) := by
  rcases hv with rfl | ⟨z, rfl, hz⟩
  · exact rad2deg_runs h M n x
  · have hm := fromInt_mul (hs z rfl) hz
    calc_ops h [rad2deg] at hz hm ⊢
    calc_run h [hz, hm]

theorem g0_number {O : Ops} (h : Ops.ieee = O) (M : Machine) (n : Nat) {v : Val} {x : F64} (hv : IsNumber v x) :
    (calls O M rangeCoordinates (n + 1)).method N.WGS84 N.g0 [v] = up ((g0 M.toPlatform x).map .float) := by
  rcases hv with rfl | ⟨z, rfl, hz⟩
  · exact g0_runs h M n x
  · calc_ops h [g0] at hz ⊢
    calc_run h [hz]

theorem ecefvec2nedvec_number {O : Ops} (h : Ops.ieee = O) (M : Machine) (n : Nat) {v w : Val} {lat lon : F64}
    (hv : IsNumber v lat) (hw : IsNumber w lon) :
    (calls O M rangeCoordinates (n + 1)).method N.GPS N.ecefvec2nedvec [v, w]
      = up ((ecefvec2nedvec M.toPlatform lat lon).map .mat) := by
  rcases hv with rfl | ⟨z, rfl, hz⟩ <;> rcases hw with rfl | ⟨y, rfl, hy⟩
  · exact ecefvec2nedvec_runs h M n lat lon
  · calc_ops h [ecefvec2nedvec] at hy ⊢
    calc_run h [hy]
  · calc_ops h [ecefvec2nedvec] at hz ⊢
    calc_run h [hz]
  · calc_ops h [ecefvec2nedvec] at hz hy ⊢
    calc_run h [hz, hy]

theorem rotate_number {O : Ops} (h : Ops.ieee = O) (M : Machine) (n : Nat) {t : Val} {theta : F64} (v : Vec)
    (ht : IsNumber t theta) :
    (calls O M rangeCoordinates (n + 2)).method N.GPS N.rotate_3x3 [t, .arr v]
      = up ((rotate_3x3 M.toPlatform theta v).map .mat) := by
  rcases ht with rfl | ⟨z, rfl, hz⟩
  · exact rotate_3x3_runs h M n theta v
  · calc_ops h [rotate_3x3, skew] at hz ⊢
    calc_run h [attr_identity M h, hz]

theorem lla2ecef_number {O : Ops} (h : Ops.ieee = O) (M : Machine) (n : Nat) {u v w : Val} {a b c : F64}
    (hu : IsNumber u a) (hv : IsNumber v b) (hw : IsNumber w c) :
    (calls O M rangeCoordinates (n + 2)).method N.GPS N.lla2ecef [.tuple [u, v, w]]
      = up ((lla2ecef M.toPlatform ![a, b, c]).map point) := by
  rcases hu with rfl | ⟨x, rfl, hx⟩ <;> rcases hv with rfl | ⟨y, rfl, hy⟩ <;> rcases hw with rfl | ⟨z, rfl, hz⟩
  · calc_ops h [lla2ecef, normal, deg2rad]
    calc_run h [attr_a M h, attr_e M h, attr_wgs84 M h]
  · calc_ops h [lla2ecef, normal, deg2rad] at hz ⊢
    calc_run h [attr_a M h, attr_e M h, attr_wgs84 M h, hz]
  · calc_ops h [lla2ecef, normal, deg2rad] at hy ⊢
    calc_run h [attr_a M h, attr_e M h, attr_wgs84 M h, hy]
  · calc_ops h [lla2ecef, normal, deg2rad] at hy hz ⊢
    calc_run h [attr_a M h, attr_e M h, attr_wgs84 M h, hy, hz]
  · calc_ops h [lla2ecef, normal, deg2rad] at hx ⊢
    calc_run h [attr_a M h, attr_e M h, attr_wgs84 M h, hx]
  · calc_ops h [lla2ecef, normal, deg2rad] at hx hz ⊢
    calc_run h [attr_a M h, attr_e M h, attr_wgs84 M h, hx, hz]
  · calc_ops h [lla2ecef, normal, deg2rad] at hx hy ⊢
    calc_run h [attr_a M h, attr_e M h, attr_wgs84 M h, hx, hy]
  · calc_ops h [lla2ecef, normal, deg2rad] at hx hy hz ⊢
    calc_run h [attr_a M h, attr_e M h, attr_wgs84 M h, hx, hy, hz]

theorem transpose_runs {O : Ops} (M : Machine) (n : Nat) (v : Vec) :
    (calls O M rangeCoordinates (n + 1)).method N.GPS N.transpose [.arr v] = .ok (.col v) := by
  calc_eval []

theorem transpose_int_runs {O : Ops} (M : Machine) (n : Nat) (v : Fin 3 → Int) :
    (calls O M rangeCoordinates (n + 1)).method N.GPS N.transpose [.iarr v] = .ok (.icol v) := by
  calc_eval []

attribute [local irreducible] Dbl.lla2ecef Dbl.rotate_3x3 Dbl.ecefvec2nedvec

theorem llarpy2ecef_number_np {O : Ops} (h : Ops.ieee = O) (M : Machine) (n : Nat) {v1 v2 v3 v4 v5 v6 : Val}
    {lat lon alt roll pitch yaw : F64} (n1 : IsNumber v1 lat) (n2 : IsNumber v2 lon) (n3 : IsNumber v3 alt)
    (n4 : IsNumber v4 roll) (n5 : IsNumber v5 pitch) (n6 : IsNumber v6 yaw) (s1 : Small v1) (s2 : Small v2) :
    (calls O M rangeCoordinates (n + 3)).method N.GPS N.llarpy2ecef [v1, v2, v3, v4, v5, v6]
      = up ((npLlarpy M lat lon alt roll pitch yaw).map six) := by
  rw [method_eq rfl rfl]
  have h1 (x y : F64) : (calls O M rangeCoordinates (n + 2)).method N.GPS N.lla2ecef [.tuple [.float x, .float y, v3]]
      = up ((lla2ecef M.toPlatform ![x, y, alt]).map point) := lla2ecef_number h M n (.inl rfl) (.inl rfl) n3
  have h2 := ecefvec2nedvec_number h M (n + 1) n1 n2
  have h3 := rotate_3x3_runs h M n
  have h4 := rotate_int_runs h M n
  have h5 := rad2deg_number h M (n + 1) n1 s1
  have h6 := rad2deg_number h M (n + 1) n2 s2
  have h7 (v : Vec) := rotate_number h M n v n4
  have h8 (v : Vec) := rotate_number h M n v n5
  have h9 (v : Vec) := rotate_number h M n v n6
  generalize calls O M rangeCoordinates (n + 2) = C at *
  calc_ops h [npLlarpy, turned, npAngles, rad2deg] at h1 h2 h3 h4 h5 h6 h7 h8 h9 ⊢
  clear n1 n2 n3 n4 n5 n6 s1 s2
  calc_run h [h1, h2, h3, h4, h5, h6, h7, h8, h9]

end Calc
end Dis
