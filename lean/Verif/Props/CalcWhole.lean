import Verif.Proof.CalcWhole
import Verif.Props.Calc
import Verif.Props.Trip64

/-!
# C78: whole numbers in place of floats

Python does not tell `0` from `0.0` here: the functions of `opendis/RangeCoordinates.py` called with integers among their
arguments, as `examples/dis_sender.py` and the tests call them, return what they return for the floats. `IsNumber v x`
says that `v` is the float `x` or an integer that is converted to it (`Spec/CalcWhole.lean`).
-/

namespace Dis

open Calc Dbl
open Geo (ofDouble)

/-- `deg2rad`, `g0`, `ecefvec2nedvec`, `rotate_3x3` and `lla2ecef`. -/
theorem C78_whole_numbers (M : Machine) {u v w : Calc.Val} {x y z : F64} (hu : IsNumber u x) (hv : IsNumber v y)
    (hw : IsNumber w z) (axis : Vec) :
    Calc.Gives (Calc.range M N.deg2rad [u]) (some (.ok (.float (Dbl.deg2rad x)))) ∧
    Calc.Gives (wgs84 M N.g0 [u]) (some ((Dbl.g0 M.toPlatform x).map .float)) ∧
    Calc.Gives (gps M N.ecefvec2nedvec [u, v]) (some ((Dbl.ecefvec2nedvec M.toPlatform x y).map .mat)) ∧
    Calc.Gives (gps M N.rotate_3x3 [u, .arr axis]) (some ((Dbl.rotate_3x3 M.toPlatform x axis).map .mat)) ∧
    Calc.Gives (gps M N.lla2ecef [.tuple [u, v, w]]) (some ((Dbl.lla2ecef M.toPlatform ![x, y, z]).map point)) :=
  ⟨gives_of 1 fun n => deg2rad_number rfl M n hu, gives_of 1 fun n => g0_number rfl M n hu,
    gives_of 1 fun n => ecefvec2nedvec_number rfl M n hu hv, gives_of 2 fun n => rotate_number rfl M n axis hu,
    gives_of 2 fun n => lla2ecef_number rfl M n hu hv hw⟩

/-- `rad2deg`, which multiplies integers before it converts them: the same for integers up to 2^53. -/
theorem C78_whole_radians (M : Machine) {u : Calc.Val} {x : F64} (hu : IsNumber u x) (hs : Small u) :
    Calc.Gives (Calc.range M N.rad2deg [u]) (some (.ok (.float (Dbl.rad2deg x)))) :=
  gives_of 1 fun n => rad2deg_number rfl M n hu hs

/-- `llarpy2ecef` with any of its six arguments a whole number, the latitude and longitude up to 2^53. -/
theorem C78_whole_attitude (M : Machine) (hsq : ∀ x y, M.square x = .ok y → M.npSquare x = y)
    {v1 v2 v3 v4 v5 v6 : Calc.Val} {lat lon alt roll pitch yaw : F64} (n1 : IsNumber v1 lat) (n2 : IsNumber v2 lon)
    (n3 : IsNumber v3 alt) (n4 : IsNumber v4 roll) (n5 : IsNumber v5 pitch) (n6 : IsNumber v6 yaw) (s1 : Small v1)
    (s2 : Small v2) (r : Vec × Vec) (hr : Dbl.llarpy2ecef (withDot M) lat lon alt roll pitch yaw = .ok r) :
    Calc.Gives (gps M N.llarpy2ecef [v1, v2, v3, v4, v5, v6]) (some (.ok (six r))) :=
  gives_of 3 fun n => (llarpy2ecef_number_np rfl M n n1 n2 n3 n4 n5 n6 s1 s2).trans (by rw [npLlarpy_ok hsq hr]; rfl)

/-- `transpose` makes a column of an array of doubles or of integers. -/
theorem C78_transpose (M : Machine) (v : Vec) (w : Fin 3 → Int) :
    Calc.Gives (gps M N.transpose [.arr v]) (some (.ok (.col v))) ∧
    Calc.Gives (gps M N.transpose [.iarr w]) (some (.ok (.icol w))) :=
  ⟨gives_of 1 fun n => transpose_runs M n v, gives_of 1 fun n => transpose_int_runs M n w⟩

theorem number_one : IsNumber (.int 1) (num 1) := .inr ⟨1, rfl, by delta Dbl.fromInt F64.ofInt num; decide +kernel⟩

theorem number_zero : IsNumber (.int 0) (num 0) := .inr ⟨0, rfl, by delta Dbl.fromInt F64.ofInt num; decide +kernel⟩

/-- The call of `examples/dis_sender.py` as it stands there, with the integers 1, 0, 0, 0: the source makes a position and
an orientation, the message with them is the message of the model's program, and the receiver shows Monterey (C74). -/
theorem C78_sender (M : Machine) (hM : (withDot M).Accurate) (hsq : ∀ x y, M.square x = .ok y → M.npSquare x = y) :
    ∃ lat lon pos euler p b s,
      Calc.Gives (Calc.range M N.deg2rad [.float 0x40424ccccccccccd]) (some (.ok lat)) ∧
      Calc.Gives (Calc.range M N.deg2rad [.float 0xc05e79999999999a]) (some (.ok lon)) ∧
      Calc.Gives (gps M N.llarpy2ecef [lat, lon, .int 1, .int 0, .int 0, .int 0]) (some (.ok (six (pos, euler)))) ∧
      senderPdu (pos 0, pos 1, pos 2, euler 0, euler 1, euler 2) = .ok p ∧ p.serialize.Emits b ∧
      Dbl.receiver (withDot M) [b] = ([.entity 42 s], .waiting) ∧
      |ofDouble s.latitude - 36.6| ≤ 1.3e-5 ∧ |ofDouble s.longitude + 121.9| ≤ 1e-8 ∧ |ofDouble s.altitude - 1| ≤ 1.18 := by
  obtain ⟨p, b, s, e1, e2, e3, b1, b2, b3, -⟩ := C74_sender (withDot M) hM
  unfold Dbl.sender Dbl.send at e1
  cases e4 : Dbl.llarpy2ecef (withDot M) (Dbl.deg2rad 0x40424ccccccccccd) (Dbl.deg2rad 0xc05e79999999999a) (num 1) (num 0)
      (num 0) (num 0) with
  | error e => rw [e4] at e1; cases e1
  | ok r =>
    rw [e4] at e1
    exact ⟨_, _, r.1, r.2, p, b, s, (C78_angles M _ 0).1, (C78_angles M _ 0).1,
      C78_whole_attitude M hsq (.inl rfl) (.inl rfl) number_one number_zero number_zero number_zero
        (fun _ h => by cases h) (fun _ h => by cases h) _ e4, e1, e2, e3, b1, b2, b3⟩

/-! Cases: the reference machine. -/

/-- Latitude 0, longitude 1 and an altitude of 100.0 m. -/
example : ∃ pos, Calc.Gives (gps referenceMachine N.lla2ecef [.tuple [.int 0, .int 1, .float (num 100)]])
    (some pos) :=
  ⟨_, (C78_whole_numbers referenceMachine number_zero number_one (.inl rfl) ![num 1, num 0, num 0]).2.2.2.2⟩

/-- One radian is 180 / pi degrees. -/
example : Calc.Gives (Calc.range referenceMachine N.rad2deg [.int 1])
    (some (.ok (.float (F64.div (F64.mul (num 1) (num 180)) Dbl.pi)))) :=
  C78_whole_radians referenceMachine number_one (fun z h => by cases h; decide)

/-- The axis `Z0` of `llarpy2ecef`. -/
example : Calc.Gives (gps referenceMachine N.transpose [.iarr ![0, 0, 1]]) (some (.ok (.icol ![0, 0, 1]))) :=
  (C78_transpose referenceMachine ![num 0, num 0, num 0] _).2

/-- The library and the squares of the reference machine meet the hypotheses of `C78_sender`. -/
example : ∃ lat lon pos euler p b s,
      Calc.Gives (Calc.range referenceMachine N.deg2rad [.float 0x40424ccccccccccd]) (some (.ok lat)) ∧
      Calc.Gives (Calc.range referenceMachine N.deg2rad [.float 0xc05e79999999999a]) (some (.ok lon)) ∧
      Calc.Gives (gps referenceMachine N.llarpy2ecef [lat, lon, .int 1, .int 0, .int 0, .int 0]) (some (.ok (six (pos, euler)))) ∧
      senderPdu (pos 0, pos 1, pos 2, euler 0, euler 1, euler 2) = .ok p ∧ p.serialize.Emits b ∧
      Dbl.receiver (withDot referenceMachine) [b] = ([.entity 42 s], .waiting) ∧
      |ofDouble s.latitude - 36.6| ≤ 1.3e-5 ∧ |ofDouble s.longitude + 121.9| ≤ 1e-8 ∧ |ofDouble s.altitude - 1| ≤ 1.18 :=
  C78_sender referenceMachine Geo.referenceNumpy_accurate referenceMachine_square

end Dis
