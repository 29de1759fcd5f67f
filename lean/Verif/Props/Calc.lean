import Verif.Proof.CalcAngles
import Verif.Proof.CalcDr
import Verif.Props.Attitude64
import Verif.Props.Local64
import Verif.Proof.Utm64
import Verif.Proof.ReferenceNumpy

/-!
# C78: the models of the numerical modules are the source

The syntax trees of `opendis/RangeCoordinates.py` and `opendis/DeadReckoning.py` (`Source/Calc.lean`), run by the
interpreter of `Py/Calc.lean`, do what the floating-point models (`Dis.Dbl`) do: the same doubles bit for bit, the same
exceptions, and no end where the models have none. `Gives run r` says that the call comes to `r` (`Spec/Calc.lean`).
The C library, the products of numpy and the parser of numbers are any (`Machine`).
-/

namespace Dis

open Calc Dbl
open Geo (ofDouble referenceCMath referenceNumpy referenceNumpy_accurate Ap.num)

/-- A bound on the rounds and calls is enough. -/
theorem gives_of {run : Nat → Res Calc.Val} {r : Except PyErr Calc.Val} (k : Nat) (h : ∀ n, run (n + k) = up r) : Calc.Gives run (some r) :=
  ⟨k, fun n hn => by obtain ⟨m, rfl⟩ : ∃ m, n = m + k := ⟨n - k, by omega⟩; exact h m⟩

/-! ## RangeCoordinates -/

/-- `deg2rad` of a float and of an integer, `rad2deg`, and `g0`. -/
theorem C78_angles (M : Machine) (x : F64) (z : Int) :
    Calc.Gives (Calc.range M N.deg2rad [.float x]) (some (.ok (.float (Dbl.deg2rad x)))) ∧
    Calc.Gives (Calc.range M N.deg2rad [.int z]) (some ((fromInt z).map fun y => .float (Dbl.deg2rad y))) ∧
    Calc.Gives (Calc.range M N.rad2deg [.float x]) (some (.ok (.float (Dbl.rad2deg x)))) ∧
    Calc.Gives (wgs84 M N.g0 [.float x]) (some ((Dbl.g0 M.toPlatform x).map .float)) := by
  refine ⟨gives_of 1 fun n => deg2rad_runs rfl M n x, gives_of 1 fun n => (deg2rad_int_runs rfl M n z).trans ?_,
    gives_of 1 fun n => rad2deg_runs rfl M n x, gives_of 1 fun n => g0_runs rfl M n x⟩
  generalize fromInt z = w
  cases w <;> rfl

/-- `euclideanDistance` of a tuple or a list of any length. -/
theorem C78_euclideanDistance (M : Machine) (b : Bool) (l : List F64) :
    Calc.Gives (Calc.range M N.euclideanDistance [seq b (l.map .float)])
      (some ((Dbl.euclideanDistance M.toPlatform l).map .float)) :=
  gives_of 1 fun n => euclideanDistance_runs rfl M n b l

/-- `lla2ecef` and `lla2gcc` with and without an origin. -/
theorem C78_lla2ecef (M : Machine) (lla : Vec) (s : String) (hs : s.isEmpty = false) :
    Calc.Gives (gps M N.lla2ecef [point lla]) (some ((Dbl.lla2ecef M.toPlatform lla).map point)) ∧
    Calc.Gives (gps M N.lla2gcc [point lla]) (some ((Dbl.lla2gcc M.toPlatform lla none).map point)) ∧
    Calc.Gives (gps M N.lla2gcc [point lla, .str s])
      (some (do return point (← Dbl.lla2gcc M.toPlatform lla (some (← numbers M s))))) :=
  ⟨gives_of 2 fun n => lla2ecef_runs rfl M n lla, gives_of 3 fun n => lla2gcc_runs rfl M n lla,
    gives_of 3 fun n => lla2gcc_origin_runs rfl M n lla s hs⟩

/-- `ecef2lla`, of a tuple or a list, with a tolerance of at most 90 and with the default: the same result or exception,
and no end where the model's loop has none. -/
theorem C78_ecef2lla (M : Machine) (b : Bool) (ecef : Vec) (tolerance : F64) (ht : F64.le tolerance (num 90) = true) :
    Calc.Gives (gps M N.ecef2lla [coords b ecef, .float tolerance]) ((Dbl.ecef2lla M.toLibm ecef tolerance).map (·.map point)) ∧
    Calc.Gives (gps M N.ecef2lla [coords b ecef]) ((Dbl.ecef2lla M.toLibm ecef defaultTolerance).map (·.map point)) :=
  ⟨ecef2lla_gives rfl M b ecef tolerance ht, ecef2lla_default_gives rfl M b ecef⟩

/-- `utmLetterDesignator`, `lla2utm` and `ecef2utm`. -/
theorem C78_utm (M : Machine) (b : Bool) (lat : F64) (v : Vec) :
    Calc.Gives (gps M N.utmLetterDesignator [.float lat]) (some (.ok (.str (Dbl.utmLetterDesignator lat).toString))) ∧
    Calc.Gives (gps M N.lla2utm [point v]) (some ((Dbl.lla2utm M.toCMath v).map utmValue)) ∧
    Calc.Gives (gps M N.ecef2utm [coords b v]) ((Dbl.ecef2utm M.toCMath v).map (·.map utmValue)) :=
  ⟨gives_of 1 fun n => utmLetterDesignator_runs rfl M n lat, gives_of 2 fun n => lla2utm_runs rfl M n v,
    ecef2utm_gives rfl M b v⟩

/-- `ecefvec2nedvec`, `rotate_3x3`, `ecef2ned`, `ned2ecef`, and `ned2pae` of Python floats. -/
theorem C78_frames (M : Machine) (b b' : Bool) (lat lon : F64) (v origin : Vec) :
    Calc.Gives (gps M N.ecefvec2nedvec [.float lat, .float lon]) (some ((Dbl.ecefvec2nedvec M.toPlatform lat lon).map .mat)) ∧
    Calc.Gives (gps M N.rotate_3x3 [.float lat, .arr v]) (some ((Dbl.rotate_3x3 M.toPlatform lat v).map .mat)) ∧
    Calc.Gives (gps M N.ecef2ned [coords b v, coords b' origin]) ((Dbl.ecef2ned M.toLibm v origin).map (·.map npList)) ∧
    Calc.Gives (gps M N.ned2ecef [coords b v, coords b' origin]) ((Dbl.ned2ecef M.toLibm v origin).map (·.map npList)) ∧
    Calc.Gives (gps M N.ned2pae [coords b v]) (some ((Dbl.ned2pae M.toLibm v).map (coords false))) :=
  ⟨gives_of 1 fun n => ecefvec2nedvec_runs rfl M n lat lon, gives_of 2 fun n => rotate_3x3_runs rfl M n lat v,
    ecef2ned_gives rfl M b b' v origin, ned2ecef_gives rfl M b b' v origin, gives_of 2 fun n => ned2pae_runs rfl M n b v⟩

/-- `ecef2pae`, where the model's squares do not raise. The code squares floats of numpy, which never raises; the model
squares like Python. -/
theorem C78_ecef2pae (M : Machine) (hsq : ∀ x y, M.square x = .ok y → M.npSquare x = y) (b b' : Bool) (ecef origin : Vec)
    (hok : ∀ ned e, Dbl.ecef2ned M.toLibm ecef origin = some (.ok ned) → Dbl.ned2pae M.toLibm ned ≠ .error e) :
    Calc.Gives (gps M N.ecef2pae [coords b ecef, coords b' origin]) ((Dbl.ecef2pae M.toLibm ecef origin).map (·.map (coords false))) :=
  ecef2pae_gives rfl M hsq b b' ecef origin hok

/-- `llarpy2ecef` and `ecef2llarpy`, with the same remark on squares. The code turns arrays of integers where the model
turns arrays of doubles; the signs of zeros that differ in between do not reach the result. -/
theorem C78_attitude (M : Machine) (hsq : ∀ x y, M.square x = .ok y → M.npSquare x = y) (x y z a b c : F64) :
    (∀ r, Dbl.llarpy2ecef (withDot M) x y z a b c = .ok r →
      Calc.Gives (gps M N.llarpy2ecef [.float x, .float y, .float z, .float a, .float b, .float c]) (some (.ok (six r)))) ∧
    ((∀ lla e, Dbl.ecef2lla M.toLibm ![x, y, z] defaultTolerance = some (.ok lla) →
        Dbl.ecef2llarpy_rest (withDot M) lla a b c ≠ .error e) →
      Calc.Gives (gps M N.ecef2llarpy [.float x, .float y, .float z, .float a, .float b, .float c])
        ((Dbl.ecef2llarpy (withDot M) x y z a b c).map (·.map six))) :=
  ⟨fun r hr => gives_of 3 fun n => llarpy2ecef_runs rfl M hsq n x y z a b c r hr,
    fun hok => ecef2llarpy_gives rfl M hsq x y z a b c hok⟩

/-! ## DeadReckoning -/

/-- The nine functions, of arrays, lists or tuples. -/
theorem C78_dead_reckoning (M : Machine) {pv vv av ov wv : Calc.Val} {p v a o w : Vec} (dt : F64) (hp : IsArray pv p)
    (hv : IsArray vv v) (ha : IsArray av a) (ho : IsArray ov o) (hw : IsArray wv w) :
    Calc.Gives (dr M N.drm_static [pv, ov]) (some (.ok (pair (Dbl.drm_static p o)))) ∧
    Calc.Gives (dr M N.drm_fpw [pv, vv, .float dt, ov]) (some (.ok (pair (Dbl.drm_fpw p v dt o)))) ∧
    Calc.Gives (dr M N.drm_rpw [pv, vv, .float dt, ov, wv]) (some ((Dbl.drm_rpw M.toPlatform p v dt o w).map pair)) ∧
    Calc.Gives (dr M N.drm_rvw [pv, vv, av, .float dt, ov, wv]) (some ((Dbl.drm_rvw M.toPlatform p v a dt o w).map pair)) ∧
    Calc.Gives (dr M N.drm_fvw [pv, vv, av, .float dt, ov]) (some ((Dbl.drm_fvw M.toPlatform p v a dt o).map pair)) ∧
    Calc.Gives (dr M N.drm_fpb [pv, vv, .float dt, ov]) (some ((Dbl.drm_fpb M.toPlatform p v dt o).map pair)) ∧
    Calc.Gives (dr M N.drm_rpb [pv, vv, .float dt, ov, wv]) (some ((Dbl.drm_rpb M.toPlatform p v dt o w).map pair)) ∧
    Calc.Gives (dr M N.drm_rvb [pv, vv, av, .float dt, ov, wv]) (some ((Dbl.drm_rvb M.toPlatform p v a dt o w).map pair)) ∧
    Calc.Gives (dr M N.drm_fvb [pv, vv, av, .float dt, ov]) (some ((Dbl.drm_fvb M.toPlatform p v a dt o).map pair)) :=
  ⟨gives_of 2 fun n => drm_static_runs M n hp ho, gives_of 2 fun n => drm_fpw_runs M n dt hp hv ho,
    gives_of 2 fun n => drm_rpw_runs M n dt hp hv ho hw, gives_of 3 fun n => drm_rvw_runs M n dt hp hv ha ho hw,
    gives_of 3 fun n => drm_fvw_runs M n dt hp hv ha ho, gives_of 3 fun n => drm_fpb_runs M n dt hp hv ho,
    gives_of 3 fun n => drm_rpb_runs M n dt hp hv ho hw, gives_of 3 fun n => drm_rvb_runs M n dt hp hv ha ho hw,
    gives_of 3 fun n => drm_fvb_runs M n dt hp hv ha ho⟩

/-- Lists and tuples of three floats are arrays. -/
theorem C78_arrays (b : Bool) (v : Vec) : IsArray (.arr v) v ∧ IsArray (coords b v) v := by
  refine ⟨floatArray_arr _ v, ?_⟩
  have e : v = ![v 0, v 1, v 2] := by funext j; match j with | 0 | 1 | 2 => rfl
  unfold IsArray
  rw [e]
  cases b <;> rw [floatArray.eq_def] <;> rfl

/-! ## What was proved of the models holds for the source -/

/-- A call comes to one result only. -/
theorem C78_one_result {run : Nat → Res Calc.Val} {r r' : Option (Except PyErr Calc.Val)} (h : Calc.Gives run r) (h' : Calc.Gives run r') :
    r = r' := by
  have up_inj {a b : Except PyErr Calc.Val} (h : up a = up b) : a = b := by
    rcases a with a | a <;> rcases b with b | b
    · injection h with h; injection h with h; rw [h]
    · cases h
    · cases h
    · injection h with h; rw [h]
  rcases r with _ | r <;> rcases r' with _ | r'
  · rfl
  · obtain ⟨k, hk⟩ := h'
    have := (h k).symm.trans (hk k le_rfl)
    rcases r' with _ | _ <;> cases this
  · obtain ⟨k, hk⟩ := h
    have := (h' k).symm.trans (hk k le_rfl)
    rcases r with _ | _ <;> cases this
  · obtain ⟨k, hk⟩ := h
    obtain ⟨k', hk'⟩ := h'
    have := (hk (max k k') (le_max_left _ _)).symm.trans (hk' (max k k') (le_max_right _ _))
    rw [up_inj this]

/-- The round trip of C71 for the source text: `lla2ecef` and then `ecef2lla` come back to the latitude and the altitude
within the bounds there, on a machine whose library is within the usual bounds. -/
theorem C78_round_trip (M : Machine) (h1 : M.SquareOk) (h2 : M.SquareReturns) (h3 : M.TrigOk) (h4 : M.ArcOk)
    (lla : Vec) (hf : ∀ i, (lla i).Finite) (hlat : |ofDouble (lla 0)| < 90) (hlon : |ofDouble (lla 1)| ≤ 360)
    (halt : |ofDouble (lla 2)| ≤ 100000)
    (haxis : 1 ≤ Real.sqrt (Geo.lla2ecef (fun j => ofDouble (lla j)) 0 ^ 2 + Geo.lla2ecef (fun j => ofDouble (lla j)) 1 ^ 2)) :
    ∃ pos r, Calc.Gives (gps M N.lla2ecef [point lla]) (some (.ok (point pos))) ∧
      Calc.Gives (gps M N.ecef2lla [point pos]) (some (.ok (point r))) ∧
      |ofDouble (r 0) - ofDouble (lla 0)| ≤ 1.1e-5 + 1.1e-9 * |ofDouble (lla 2)| ∧
      |ofDouble (r 2) - ofDouble (lla 2)| ≤ 1.17 + 0.0002 * |ofDouble (lla 2)| := by
  obtain ⟨pos, r, e1, e2, b1, b2, -⟩ := C71_round_trip M.toLibm h1 h2 h3 h4 lla hf hlat hlon halt haxis
  refine ⟨pos, r, ?_, ?_, b1, b2⟩
  · have h := (C78_lla2ecef M lla "0 0 0" (by decide)).1
    rw [e1] at h
    exact h
  · have h := (C78_ecef2lla M true pos defaultTolerance default_small).2
    rw [e2] at h
    exact h

/-- The round trip of C72 for the source text: `llarpy2ecef` and then `ecef2llarpy`. -/
theorem C78_attitude_round_trip (M : Machine) (hM : (withDot M).Accurate)
    (hsq : ∀ x y, M.square x = .ok y → M.npSquare x = y) (lat lon alt roll pitch yaw : F64) (hlat : lat.Finite)
    (hlon : lon.Finite) (halt : alt.Finite) (hroll : roll.Finite) (hpitch : pitch.Finite) (hyaw : yaw.Finite)
    (blat : |ofDouble lat| ≤ 1.5707963) (blon : |ofDouble lon| ≤ 6.28) (balt : |ofDouble alt| ≤ 100000) (q : ℝ)
    (hq : q = Real.sqrt (Geo.lla2ecef ![ofDouble lat * 180 / Real.pi, ofDouble lon * 180 / Real.pi, ofDouble alt] 0 ^ 2
      + Geo.lla2ecef ![ofDouble lat * 180 / Real.pi, ofDouble lon * 180 / Real.pi, ofDouble alt] 1 ^ 2)) (haxis : 1 ≤ q) :
    ∃ x y z psi theta phi lat' lon' alt' roll' pitch' yaw',
      Calc.Gives (gps M N.llarpy2ecef [.float lat, .float lon, .float alt, .float roll, .float pitch, .float yaw])
        (some (.ok (.tuple [.float x, .float y, .float z, .float psi, .float theta, .float phi]))) ∧
      Calc.Gives (gps M N.ecef2llarpy [.float x, .float y, .float z, .float psi, .float theta, .float phi])
        (some (.ok (.tuple [.float lat', .float lon', .float alt', .float roll', .float pitch', .float yaw']))) ∧
      |ofDouble lat' - ofDouble lat| ≤ 2e-7 + 2e-11 * |ofDouble alt| ∧
      |ofDouble alt' - ofDouble alt| ≤ 1.17 + 0.0002 * |ofDouble alt| ∧
      ∀ i j, |(Geo.nedFrame (ofDouble lat') (ofDouble lon')
            * Geo.attitude ![ofDouble yaw', ofDouble pitch', ofDouble roll']) i j
          - (Geo.nedFrame (ofDouble lat) (ofDouble lon) * Geo.attitude ![ofDouble yaw, ofDouble pitch, ofDouble roll]) i j|
        ≤ 2.8e-9 := by
  obtain ⟨pos, euler, lat', lon', alt', roll', pitch', yaw', e1, e2, b1, -, -, b2, b3⟩ := C72_round_trip (withDot M) hM lat lon
    alt roll pitch yaw hlat hlon halt hroll hpitch hyaw blat blon balt q hq haxis
  refine ⟨pos 0, pos 1, pos 2, euler 0, euler 1, euler 2, lat', lon', alt', roll', pitch', yaw',
    (C78_attitude M hsq lat lon alt roll pitch yaw).1 _ e1, ?_, b1, b2, b3⟩
  have h := (C78_attitude M hsq (pos 0) (pos 1) (pos 2) (euler 0) (euler 1) (euler 2)).2 (fun lla e hl hr => by
    have hl' : Dbl.ecef2lla (withDot M).toLibm ![pos 0, pos 1, pos 2] defaultTolerance = some (.ok lla) := hl
    rw [Dbl.ecef2llarpy, hl'] at e2
    injection e2 with e2
    rw [hr] at e2
    cases e2)
  rw [e2] at h
  exact h

/-- The range of C73 for the source text: `ecef2pae` returns the distance. -/
theorem C78_range (M : Machine) (hM : (withDot M).Accurate) (hsq : ∀ x y, M.square x = .ok y → M.npSquare x = y)
    (b b' : Bool) (ecef origin lla : Vec) (D : ℝ)
    (hlla : Dbl.ecef2lla M.toLibm origin defaultTolerance = some (.ok lla))
    (hlat : (lla 0).Finite ∧ |ofDouble (lla 0)| ≤ 360) (hlon : (lla 1).Finite ∧ |ofDouble (lla 1)| ≤ 360)
    (he : ∀ i, (ecef i).Finite) (ho : ∀ i, (origin i).Finite)
    (hD : D = Geo.len fun i => ofDouble (ecef i) - ofDouble (origin i)) (bD : D ≤ 2 ^ 300) :
    ∃ p alpha epsilon, Calc.Gives (gps M N.ecef2pae [coords b ecef, coords b' origin])
        (some (.ok (.list [.float p, .float alpha, .float epsilon]))) ∧
      p.Finite ∧ |ofDouble p - D| ≤ 1.6e-14 * D + 5e-15 := by
  obtain ⟨p, alpha, epsilon, e, h1, h2⟩ := C73_range (withDot M) hM ecef origin lla D hlla hlat hlon he ho hD bD
  refine ⟨p, alpha, epsilon, ?_, h1, h2⟩
  have e' : Dbl.ecef2pae M.toLibm ecef origin = some (.ok ![p, alpha, epsilon]) := e
  have h := C78_ecef2pae M hsq b b' ecef origin (fun ned err hn hp => by
    rw [Dbl.ecef2pae, hn] at e'
    injection e' with e'
    rw [hp] at e'
    cases e')
  rw [e'] at h
  exact h

/-- The centre of the earth: the source raises, on every machine on which the square of zero is zero. -/
theorem C78_centre (M : Machine) (h0 : M.SquareZero) (b : Bool) (pos : Vec) (hf : ∀ i, (pos i).Finite)
    (hc : ∀ i, ofDouble (pos i) = 0) : Calc.Gives (gps M N.ecef2lla [coords b pos]) (some (.error .exception)) := by
  have h := (C78_ecef2lla M b pos defaultTolerance default_small).2
  rw [C71_centre M.toLibm h0 pos defaultTolerance hf hc] at h
  exact h

/-! ## Cases -/

/-- A machine: the reference library, and numbers without a fraction. -/
noncomputable def referenceMachine : Machine where
  toCMath := referenceCMath
  dot := Geo.dot
  npSquare x := F64.mul x x
  split s := s.splitOn " "
  parse s := match s.toNat? with
    | some n => .ok (num n)
    | none => .error .valueError

theorem referenceMachine_square (x y : F64) (h : referenceMachine.square x = .ok y) : referenceMachine.npSquare x = y := by
  injection h

theorem sums : F64.add (F64.add (num 0) (F64.mul (num 3) (num 3))) (F64.mul (num 4) (num 4)) = num 25 ∧
    F64.sqrt (num 25) = .ok (num 5) ∧ F64.add (num 1) (F64.mul (num 10) (num 2)) = num 21 ∧
    F64.add (num 2) (F64.mul (num 0) (num 2)) = num 2 ∧ F64.add (num 3) (F64.mul (num 0) (num 2)) = num 3 := by
  decide +kernel

theorem num_zero : (num 0).Finite ∧ ofDouble (num 0) = 0 := by
  refine ⟨show (num 0).expo ≠ 2047 by decide +kernel, ?_⟩
  have := (Ap.num (n := 0) (by decide)).2
  exact sub_eq_zero.1 (abs_eq_zero.1 (le_antisymm (by simpa using this) (abs_nonneg _)))

attribute [local irreducible] num F64.add F64.mul F64.sqrt

/-- 12.5 degrees is in radians what the model says; 60 degrees as an integer too. -/
example : Calc.Gives (Calc.range referenceMachine N.deg2rad [.float 0x4029000000000000])
    (some (.ok (.float (Dbl.deg2rad 0x4029000000000000)))) := (C78_angles _ _ 60).1

/-- The distance of (3, 4) as a list. -/
example : Calc.Gives (Calc.range referenceMachine N.euclideanDistance [.list [.float (num 3), .float (num 4)]])
    (some (.ok (.float (num 5)))) := by
  have h := C78_euclideanDistance referenceMachine false [num 3, num 4]
  have e : Dbl.euclideanDistance referenceMachine.toPlatform [num 3, num 4] = .ok (num 5) := by
    show F64.sqrt (F64.add (F64.add (num 0) (F64.mul (num 3) (num 3))) (F64.mul (num 4) (num 4))) = _
    rw [sums.1, sums.2.1]
  rw [e] at h
  exact h

/-- Monterey, with the origin "10 20 30". -/
example : Calc.Gives (gps referenceMachine N.lla2gcc [point ![0x4042400000000000, 0xc05e800000000000, num 100], .str "10 20 30"])
    (some (do return point (← Dbl.lla2gcc referenceMachine.toPlatform ![0x4042400000000000, 0xc05e800000000000, num 100]
      (some (← numbers referenceMachine "10 20 30"))))) :=
  (C78_lla2ecef _ _ "10 20 30" (by decide)).2.2

/-- A tolerance of one degree. -/
example (x y z : F64) :
    Calc.Gives (gps referenceMachine N.ecef2lla [coords true ![x, y, z], .float (num 1)])
      ((Dbl.ecef2lla referenceMachine.toLibm ![x, y, z] (num 1)).map (·.map point)) :=
  (C78_ecef2lla _ true _ (num 1) (by decide +kernel)).1

/-- 36.5 degrees north is in band S. -/
example : Calc.Gives (gps referenceMachine N.utmLetterDesignator [.float 0x4042400000000000]) (some (.ok (.str "S"))) := by
  have h := (C78_utm referenceMachine true 0x4042400000000000 ![num 0, num 0, num 0]).1
  have e : Dbl.utmLetterDesignator 0x4042400000000000 = 'S' := by decide +kernel
  rw [e] at h
  exact h

/-- Dead reckoning of (1, 2, 3) with velocity (10, 0, 0) for two seconds, as lists: (21, 2, 3). -/
example : Calc.Gives (dr referenceMachine N.drm_fpw [coords false ![num 1, num 2, num 3], coords false ![num 10, num 0, num 0],
      .float (num 2), coords true ![num 0, num 0, num 0]])
    (some (.ok (pair (![num 21, num 2, num 3], ![num 0, num 0, num 0])))) := by
  have h := (C78_dead_reckoning referenceMachine (num 2) (C78_arrays false ![num 1, num 2, num 3]).2
    (C78_arrays false ![num 10, num 0, num 0]).2 (C78_arrays false ![num 0, num 0, num 0]).2
    (C78_arrays true ![num 0, num 0, num 0]).2 (C78_arrays true ![num 0, num 0, num 0]).2).2.1
  have e : Dbl.drm_fpw ![num 1, num 2, num 3] ![num 10, num 0, num 0] (num 2) ![num 0, num 0, num 0]
      = (![num 21, num 2, num 3], ![num 0, num 0, num 0]) := by
    refine Prod.ext ?_ rfl
    funext j
    match j with
    | 0 => exact sums.2.2.1
    | 1 => exact sums.2.2.2.1
    | 2 => exact sums.2.2.2.2
  rw [e] at h
  exact h

/-- The centre of the earth on the reference machine. -/
example : Calc.Gives (gps referenceMachine N.ecef2lla [coords true ![num 0, num 0, num 0]]) (some (.error .exception)) := by
  refine C78_centre referenceMachine referenceNumpy_accurate.squareZero true _ (fun i => ?_) (fun i => ?_)
  · match i with | 0 | 1 | 2 => exact num_zero.1
  · match i with | 0 | 1 | 2 => exact num_zero.2

/-- At the pole, where `ecef2lla` does not loop: the source gives 13 m for the distance of (3, 4, 12). -/
example : ∃ p alpha epsilon,
    Calc.Gives (gps referenceMachine N.ecef2pae [coords true ![0x4008000000000000, 0x4010000000000000, 0x41583fce00000000],
        coords false ![0, 0, 0x41583fcb00000000]])
      (some (.ok (.list [.float p, .float alpha, .float epsilon]))) ∧ |ofDouble p - 13| ≤ 3e-13 := by
  obtain ⟨p, alpha, epsilon, e, h, -⟩ := pole_range
  refine ⟨p, alpha, epsilon, ?_, h⟩
  have e' : Dbl.ecef2pae referenceMachine.toLibm ![0x4008000000000000, 0x4010000000000000, 0x41583fce00000000]
    ![0, 0, 0x41583fcb00000000] = some (.ok ![p, alpha, epsilon]) := e
  have h := C78_ecef2pae referenceMachine referenceMachine_square true false
    ![0x4008000000000000, 0x4010000000000000, 0x41583fce00000000] ![0, 0, 0x41583fcb00000000] (fun ned err hn hp => by
    rw [Dbl.ecef2pae, hn] at e'
    injection e' with e'
    rw [hp] at e'
    cases e')
  rw [e'] at h
  exact h

/-- The attitude of an aeroplane pointing straight up, there and back: the source returns the latitude and the altitude. -/
example : ∃ x y z psi theta phi lat lon alt roll pitch yaw,
    Calc.Gives (gps referenceMachine N.llarpy2ecef [.float 0x3fe0000000000000, .float 0xc000000000000000,
        .float 0x4059000000000000, .float 0x3fd0000000000000, .float 0x3ff921fb54442d18, .float 0x3ff0000000000000])
      (some (.ok (.tuple [.float x, .float y, .float z, .float psi, .float theta, .float phi]))) ∧
    Calc.Gives (gps referenceMachine N.ecef2llarpy [.float x, .float y, .float z, .float psi, .float theta, .float phi])
      (some (.ok (.tuple [.float lat, .float lon, .float alt, .float roll, .float pitch, .float yaw]))) ∧
    |ofDouble lat - 1 / 2| ≤ 2.1e-7 ∧ |ofDouble alt - 100| ≤ 1.2 := by
  obtain ⟨pos, euler, lat, lon, alt, roll, pitch, yaw, e1, e2, h1, h2⟩ := upright
  refine ⟨pos 0, pos 1, pos 2, euler 0, euler 1, euler 2, lat, lon, alt, roll, pitch, yaw,
    (C78_attitude referenceMachine referenceMachine_square _ _ _ _ _ _).1 _ e1, ?_, h1, h2⟩
  have h := (C78_attitude referenceMachine referenceMachine_square (pos 0) (pos 1) (pos 2) (euler 0) (euler 1) (euler 2)).2
    (fun lla e hl hr => by
      have hl' : Dbl.ecef2lla referenceNumpy.toLibm ![pos 0, pos 1, pos 2] defaultTolerance = some (.ok lla) := hl
      rw [Dbl.ecef2llarpy, hl'] at e2
      injection e2 with e2
      have hr' : Dbl.ecef2llarpy_rest referenceNumpy lla (euler 0) (euler 1) (euler 2) = .error e := hr
      rw [hr'] at e2
      cases e2)
  have e2' : Dbl.ecef2llarpy (withDot referenceMachine) (pos 0) (pos 1) (pos 2) (euler 0) (euler 1) (euler 2)
    = some (.ok (![lat, lon, alt], ![roll, pitch, yaw])) := e2
  rw [e2'] at h
  exact h

end Dis
