import Verif.Proof.CalcFacts

/-!
# What the trees of the numerical modules do
-/

namespace Dis.Calc

open Dbl

set_option exponentiation.threshold 3000

attribute [local irreducible] num

/-! ## `opendis/RangeCoordinates.py` -/

theorem attr_a (M : Machine) {O : Ops} (h : Ops.ieee = O) :
    classAttr O M rangeCoordinates N.WGS84 N.a = .ok (.float WGS84.a) := by
  subst h; checked_rfl

theorem attr_b (M : Machine) {O : Ops} (h : Ops.ieee = O) :
    classAttr O M rangeCoordinates N.WGS84 N.b = .ok (.float WGS84.b) := by
  subst h; checked_rfl

theorem attr_e (M : Machine) {O : Ops} (h : Ops.ieee = O) :
    classAttr O M rangeCoordinates N.WGS84 N.e = .ok (.float WGS84.e) := by
  subst h; checked_rfl

theorem attr_wgs84 (M : Machine) {O : Ops} (h : Ops.ieee = O) :
    classAttr O M rangeCoordinates N.GPS N.wgs84 = .ok (.obj N.WGS84) := by
  subst h; checked_rfl

theorem attr_identity (M : Machine) {O : Ops} (h : Ops.ieee = O) :
    classAttr O M rangeCoordinates N.GPS N._IDENTITY_3X3 = .ok (.mat unit) := by
  subst h; checked_rfl

attribute [local irreducible] classAttr

theorem deg2rad_runs {O : Ops} (h : Ops.ieee = O) (M : Machine) (n : Nat) (x : F64) :
    (calls O M rangeCoordinates (n + 1)).fn N.deg2rad [.float x]
      = .ok (.float (deg2rad x)) := by
  calc_ops h [deg2rad]
  calc_run h []

theorem deg2rad_int_runs {O : Ops} (h : Ops.ieee = O) (M : Machine) (n : Nat) (z : Int) :
    (calls O M rangeCoordinates (n + 1)).fn N.deg2rad [.int z]
      = up (do let x ← fromInt z; return .float (deg2rad x)) := by
  calc_ops h [deg2rad]
  calc_run h []

theorem rad2deg_runs {O : Ops} (h : Ops.ieee = O) (M : Machine) (n : Nat) (x : F64) :
    (calls O M rangeCoordinates (n + 1)).fn N.rad2deg [.float x]
      = .ok (.float (rad2deg x)) := by
  calc_ops h [rad2deg]
  calc_run h []

theorem lla2ecef_runs {O : Ops} (h : Ops.ieee = O) (M : Machine) (n : Nat) (lla : Vec) :
    (calls O M rangeCoordinates (n + 2)).method N.GPS N.lla2ecef [point lla]
      = up ((lla2ecef M.toPlatform lla).map point) := by
  calc_ops h [lla2ecef, normal, deg2rad]
  calc_run h [attr_a M h, attr_e M h, attr_wgs84 M h]

theorem g0_runs {O : Ops} (h : Ops.ieee = O) (M : Machine) (n : Nat) (x : F64) :
    (calls O M rangeCoordinates (n + 1)).method N.WGS84 N.g0 [.float x]
      = up ((g0 M.toPlatform x).map .float) := by
  calc_ops h [g0]
  calc_run h []

theorem ecefvec2nedvec_runs {O : Ops} (h : Ops.ieee = O) (M : Machine) (n : Nat) (lat lon : F64) :
    (calls O M rangeCoordinates (n + 1)).method N.GPS N.ecefvec2nedvec [.float lat, .float lon]
      = up ((ecefvec2nedvec M.toPlatform lat lon).map .mat) := by
  calc_ops h [ecefvec2nedvec]
  calc_run h []

theorem rotate_3x3_runs {O : Ops} (h : Ops.ieee = O) (M : Machine) (n : Nat) (theta : F64) (v : Vec) :
    (calls O M rangeCoordinates (n + 2)).method N.GPS N.rotate_3x3 [.float theta, .arr v]
      = up ((rotate_3x3 M.toPlatform theta v).map .mat) := by
  calc_ops h [rotate_3x3, skew]
  calc_run h [attr_identity M h]

theorem push_letter (b : Bool) (c d : Char) : (Except.ok (Val.str (cond b c d).toString) : Res Val)
    = cond b (.ok (.str c.toString)) (.ok (.str d.toString)) := by cases b <;> rfl

theorem letter_C : 'C'.toString = "C" := by rfl

theorem letter_D : 'D'.toString = "D" := by rfl

theorem letter_E : 'E'.toString = "E" := by rfl

theorem letter_F : 'F'.toString = "F" := by rfl

theorem letter_G : 'G'.toString = "G" := by rfl

theorem letter_H : 'H'.toString = "H" := by rfl

theorem letter_J : 'J'.toString = "J" := by rfl

theorem letter_K : 'K'.toString = "K" := by rfl

theorem letter_L : 'L'.toString = "L" := by rfl

theorem letter_M : 'M'.toString = "M" := by rfl

theorem letter_N : 'N'.toString = "N" := by rfl

theorem letter_P : 'P'.toString = "P" := by rfl

theorem letter_Q : 'Q'.toString = "Q" := by rfl

theorem letter_R : 'R'.toString = "R" := by rfl

theorem letter_S : 'S'.toString = "S" := by rfl

theorem letter_T : 'T'.toString = "T" := by rfl

theorem letter_U : 'U'.toString = "U" := by rfl

theorem letter_V : 'V'.toString = "V" := by rfl

theorem letter_W : 'W'.toString = "W" := by rfl

theorem letter_X : 'X'.toString = "X" := by rfl

theorem letter_Z : 'Z'.toString = "Z" := by rfl

attribute [local irreducible] evalChain

theorem utmLetterDesignator_runs {O : Ops} (h : Ops.ieee = O) (M : Machine) (n : Nat) (lat : F64) :
    (calls O M rangeCoordinates (n + 1)).method N.GPS N.utmLetterDesignator [.float lat]
      = .ok (.str (utmLetterDesignator lat).toString) := by
  calc_ops h [utmLetterDesignator]
  simp only [push_letter, letter_C, letter_D, letter_E, letter_F, letter_G, letter_H, letter_J, letter_K, letter_L, letter_M, letter_N, letter_P, letter_Q, letter_R, letter_S, letter_T, letter_U, letter_V, letter_W, letter_X, letter_Z]
  calc_run h [@chain_int, @chain_float]

theorem zoneNumber_cond (lat lon : F64) : zoneNumber lat lon =
    (match truncate (F64.div (F64.add lon (num 180)) (num 6)) with
    | .error e => .error e
    | .ok t => cond (within (num 56) lat (num 64))
        (cond (within (num 3) lon (num 12))
          (cond (within (num 72) lat (num 84))
            (cond (within (num 0) lon (num 9)) (.ok 31) (cond (within (num 9) lon (num 21)) (.ok 33)
              (cond (within (num 21) lon (num 33)) (.ok 35) (cond (within (num 33) lon (num 42)) (.ok 37) (.ok 32)))))
            (.ok 32))
          (cond (within (num 72) lat (num 84))
            (cond (within (num 0) lon (num 9)) (.ok 31) (cond (within (num 9) lon (num 21)) (.ok 33)
              (cond (within (num 21) lon (num 33)) (.ok 35) (cond (within (num 33) lon (num 42)) (.ok 37) (.ok (t + 1))))))
            (.ok (t + 1))))
        (cond (within (num 72) lat (num 84))
          (cond (within (num 0) lon (num 9)) (.ok 31) (cond (within (num 9) lon (num 21)) (.ok 33)
            (cond (within (num 21) lon (num 33)) (.ok 35) (cond (within (num 33) lon (num 42)) (.ok 37) (.ok (t + 1))))))
          (.ok (t + 1)))) := by
  unfold zoneNumber
  rcases truncate (F64.div (F64.add lon (num 180)) (num 6)) with e | t
  · rfl
  · cases within (num 56) lat (num 64) <;> cases within (num 3) lon (num 12) <;> cases within (num 72) lat (num 84) <;>
      cases within (num 0) lon (num 9) <;> cases within (num 9) lon (num 21) <;> cases within (num 21) lon (num 33) <;>
      cases within (num 33) lon (num 42) <;> rfl

end Dis.Calc
