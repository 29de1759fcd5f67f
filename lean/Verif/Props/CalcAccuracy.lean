import Verif.Proof.CalcMore
import Verif.Props.Calc
import Verif.Props.Rounding
import Verif.Props.RoundingBody
import Verif.Props.Utm64

/-!
# C78: what was proved of the models, for the source

The bounds of C62, C64, C73 and C75 hold for the syntax trees of `opendis/RangeCoordinates.py` and
`opendis/DeadReckoning.py`. `euclideanDistance` with a second point, which the floating-point model of C73 leaves out, is
compared with its tree here.
-/

set_option exponentiation.threshold 4096

namespace Dis

open Calc Dbl
open Geo (ofDouble len attitude referenceCMath referenceCMath_accurate referenceNumpy referenceNumpy_accurate Ap.num)

attribute [local irreducible] num F64.add F64.mul F64.sqrt F64.div

/-! ## The distance of two points -/

/-- `euclideanDistance` of two tuples or lists, of any lengths. -/
theorem C78_distance (M : Machine) (b b' : Bool) (l r : List F64) :
    Calc.Gives (Calc.range M N.euclideanDistance [seq b (l.map .float), seq b' (r.map .float)])
      (some ((Dbl.euclideanDistanceFrom M.toPlatform l r).map .float)) :=
  gives_of 1 fun n => euclideanDistanceFrom_runs rfl M n b b' l r

theorem sumSquaresFrom_eq (P : Platform) : ∀ (l r : List F64) (t : F64), l.length ≤ r.length →
    sumSquaresFrom P t l r = sumSquares P t (List.zipWith F64.sub l r)
  | [], r, t, _ => by rw [sumSquaresFrom.eq_def]; cases r <;> rfl
  | d :: l, [], t, h => by cases h
  | d :: l, e :: r, t, h => by
    rw [sumSquaresFrom, List.zipWith_cons_cons, sumSquares]
    congr 1
    funext s
    exact sumSquaresFrom_eq P l r _ (Nat.le_of_succ_le_succ h)

theorem sumSquaresFrom_short (P : Platform) (hs : ∀ x, ∃ y, P.square x = .ok y) : ∀ (l r : List F64) (t : F64),
    r.length < l.length → sumSquaresFrom P t l r = .error .indexError
  | [], r, t, h => by cases h
  | d :: l, [], t, h => rfl
  | d :: l, e :: r, t, h => by
    obtain ⟨s, es⟩ := hs (F64.sub d e)
    rw [sumSquaresFrom, es]
    exact sumSquaresFrom_short P hs l r _ (Nat.lt_of_succ_lt_succ h)

/-- What its comment says: with two points it comes to the same as with their difference, component by component; the
second may be longer. If it is shorter, the call raises `IndexError` unless a square has raised before. -/
theorem C78_distance_difference (M : Machine) (b b' b'' : Bool) (l r : List F64) :
    (l.length ≤ r.length → ∃ d,
      Calc.Gives (Calc.range M N.euclideanDistance [seq b (l.map .float), seq b' (r.map .float)]) (some d) ∧
      Calc.Gives (Calc.range M N.euclideanDistance [seq b'' ((List.zipWith F64.sub l r).map .float)]) (some d)) ∧
    ((∀ x, ∃ y, M.square x = .ok y) → r.length < l.length →
      Calc.Gives (Calc.range M N.euclideanDistance [seq b (l.map .float), seq b' (r.map .float)]) (some (.error .indexError))) := by
  refine ⟨fun h => ⟨_, C78_distance M b b' l r, ?_⟩, fun hs h => ?_⟩
  · unfold euclideanDistanceFrom
    rw [sumSquaresFrom_eq M.toPlatform l r _ h]
    exact C78_euclideanDistance M b'' (List.zipWith F64.sub l r)
  · have g := C78_distance M b b' l r
    unfold euclideanDistanceFrom at g
    rw [sumSquaresFrom_short M.toPlatform hs l r _ h] at g
    exact g

/-- The distance of two points in space is exact within 1.1e-15 of it and 4e-15 m, on a machine whose squares are within the
usual bounds. -/
theorem C78_distance_near (M : Machine) (h1 : M.SquareOk) (h2 : M.SquareReturns) (h3 : M.SquareNonneg) (b b' : Bool)
    (u v : Vec) (hu : ∀ i, (u i).Finite) (hv : ∀ i, (v i).Finite) (D : ℝ)
    (hD : D = len fun i => ofDouble (u i) - ofDouble (v i)) (bD : D ≤ 2 ^ 300) :
    ∃ p, Calc.Gives (Calc.range M N.euclideanDistance [coords b u, coords b' v]) (some (.ok (.float p))) ∧
      p.Finite ∧ |ofDouble p - D| ≤ 1.1e-15 * D + 4e-15 := by
  have k : ∀ i, |ofDouble (u i) - ofDouble (v i)| ≤ D := fun i => by
    rw [hD]; exact Geo.le_len (fun i => ofDouble (u i) - ofDouble (v i)) i
  have o := fun i => Geo.offset_near hu hv k bD i
  have D0 := (abs_nonneg _).trans (k 0)
  obtain ⟨p, e, hp⟩ := Geo.distance_near h1 h2 h3 (fun i => (o i).1) fun i =>
    ((o i).le (k i)).trans (by
      have b1 : (2 : ℝ) * 2 ^ 300 ≤ 2 ^ 400 := by norm_num
      generalize (2 : ℝ) ^ 300 = A at *
      generalize (2 : ℝ) ^ 400 = B at *
      norm_num
      linarith)
  refine ⟨p, ?_, hp.1, ?_⟩
  · have g := C78_distance M b b' [u 0, u 1, u 2] [v 0, v 1, v 2]
    unfold euclideanDistanceFrom at g
    rw [sumSquaresFrom_eq M.toPlatform _ _ _ (le_refl 3)] at g
    change Calc.Gives _ (some ((Dbl.euclideanDistance M.toPlatform [vsub u v 0, vsub u v 1, vsub u v 2]).map .float)) at g
    rw [e] at g
    cases b <;> cases b' <;> exact g
  · have hl := Geo.len_lip fun i => (o i).2
    rw [← hD] at hl
    have hl' := abs_le.1 hl
    refine (abs_sub_le _ _ _).trans ((add_le_add hp.2 hl).trans ?_)
    norm_num at hl' ⊢
    linarith

/-! ## Local coordinates -/

/-- `ecef2ned` and `ned2ecef` of lists of numpy's floats, which `ecef2ned` and `ned2ecef` return. -/
theorem C78_frames_numpy (M : Machine) (b : Bool) (v origin : Vec) :
    Calc.Gives (gps M N.ecef2ned [npList v, coords b origin]) ((Dbl.ecef2ned M.toLibm v origin).map (·.map npList)) ∧
    Calc.Gives (gps M N.ned2ecef [npList v, coords b origin]) ((Dbl.ned2ecef M.toLibm v origin).map (·.map npList)) :=
  ⟨ecef2ned_np rfl M b v origin, ned2ecef_np rfl M b v origin⟩

/-- The round trip of C73 for the source text: `ecef2ned`, and then `ned2ecef` of what it returned. -/
theorem C78_local_round_trip (M : Machine) (hM : (withDot M).Accurate) (b b' : Bool) (ecef origin lla : Vec) (D : ℝ)
    (hlla : Dbl.ecef2lla M.toLibm origin defaultTolerance = some (.ok lla))
    (hlat : (lla 0).Finite ∧ |ofDouble (lla 0)| ≤ 360) (hlon : (lla 1).Finite ∧ |ofDouble (lla 1)| ≤ 360)
    (he : ∀ i, (ecef i).Finite) (ho : ∀ i, (origin i).Finite) (be : ∀ i, |ofDouble (ecef i)| ≤ 2 ^ 900)
    (hD : ∀ i, |ofDouble (ecef i) - ofDouble (origin i)| ≤ D) (bD : D ≤ 2 ^ 300) :
    ∃ ned ecef', Calc.Gives (gps M N.ecef2ned [coords b ecef, coords b' origin]) (some (.ok (npList ned))) ∧
      Calc.Gives (gps M N.ned2ecef [npList ned, coords b' origin]) (some (.ok (npList ecef'))) ∧
      ∀ i, (ecef' i).Finite ∧
        |ofDouble (ecef' i) - ofDouble (ecef i)| ≤ 3e-14 * D + 1.12e-16 * |ofDouble (ecef i)| + 1e-29 := by
  obtain ⟨ned, ecef', e1, e2, h⟩ := C73_round_trip (withDot M) hM ecef origin lla D hlla hlat hlon he ho be hD bD
  refine ⟨ned, ecef', ?_, ?_, h⟩
  · have g := (C78_frames M b b' (num 0) (num 0) ecef origin).2.2.1
    have e : Dbl.ecef2ned M.toLibm ecef origin = some (.ok ned) := e1
    rw [e] at g
    exact g
  · have g := (C78_frames_numpy M b' ned origin).2
    have e : Dbl.ned2ecef M.toLibm ned origin = some (.ok ecef') := e2
    rw [e] at g
    exact g

/-! ## UTM and gravity -/

/-- The accuracy of C75 for the source text, but for longitudes less than 1e-13 degrees west of a multiple of six. -/
theorem C78_utm_near (M : Machine) (hM : M.toCMath.Accurate) (lla : Vec) (hlat : (lla 0).Finite) (hlon : (lla 1).Finite)
    (h0 : |ofDouble (lla 0)| ≤ 84) (h1 : -180 ≤ ofDouble (lla 1)) (h2 : ofDouble (lla 1) ≤ 180) (alt : ℝ)
    (hin : ∀ k : ℤ, ofDouble (lla 1) ≤ 6 * (k : ℝ) - 1e-13 ∨ 6 * (k : ℝ) ≤ ofDouble (lla 1)) :
    ∃ x y k zone letter, Calc.Gives (gps M N.lla2utm [point lla])
        (some (.ok (.tuple [.list [.float x, .float y, .float (lla 2)], .list [.str (toString zone ++ letter.toString), .float k]]))) ∧
      (zone, letter) = (Geo.lla2utm ![ofDouble (lla 0), ofDouble (lla 1), alt]).zone ∧
      x.Finite ∧ |ofDouble x - (Geo.lla2utm ![ofDouble (lla 0), ofDouble (lla 1), alt]).utm 0| ≤ 3.8e-8 ∧
      y.Finite ∧ |ofDouble y - (Geo.lla2utm ![ofDouble (lla 0), ofDouble (lla 1), alt]).utm 1| ≤ 4.6e-8 ∧
      k.Finite ∧ |ofDouble k - (Geo.lla2utm ![ofDouble (lla 0), ofDouble (lla 1), alt]).k| ≤ 1.3e-15 := by
  obtain ⟨U, e, hz, ha, h⟩ := C75_utm_inside M.toCMath hM lla hlat hlon h0 h1 h2 alt hin
  refine ⟨U.utm 0, U.utm 1, U.k, U.zone.1, U.zone.2, ?_, hz, h⟩
  have g := (C78_utm M true (num 0) lla).2.1
  rw [e] at g
  rw [← ha]
  exact g

/-- A longitude that is not a number raises `ValueError` and an infinite one `OverflowError`, in the source text. -/
theorem C78_utm_raises (M : Machine) (lla : Vec) :
    ((lla 1).isNan = true → Calc.Gives (gps M N.lla2utm [point lla]) (some (.error .valueError))) ∧
    ((lla 1).Infinite → Calc.Gives (gps M N.lla2utm [point lla]) (some (.error .overflowError))) := by
  have g := (C78_utm M true (num 0) lla).2.1
  refine ⟨fun h => ?_, fun h => ?_⟩
  · rw [(C75_longitude M.toCMath lla).1 h] at g
    exact g
  · rw [(C75_longitude M.toCMath lla).2 h] at g
    exact g

/-- Gravity, of the source text. -/
theorem C78_gravity (M : Machine) (h1 : M.SquareOk) (h2 : M.SquareReturns) (h3 : M.TrigOk) (lat : F64) (h : lat.Finite) :
    ∃ g, Calc.Gives (wgs84 M N.g0 [.float lat]) (some (.ok (.float g))) ∧ g.Finite ∧
      |ofDouble g - 9.7803267715 * (1 + 0.001931851353 * Real.sin (ofDouble lat) ^ 2)
        / Real.sqrt (1 - 0.0066943800229 * Real.sin (ofDouble lat) ^ 2)| ≤ 6e-15 := by
  obtain ⟨g, e, hg⟩ := C75_gravity M.toPlatform h1 h2 h3 lat h
  refine ⟨g, ?_, hg⟩
  have := (C78_angles M lat 0).2.2.2
  rw [e] at this
  exact this

/-! ## Dead reckoning -/

theorem pair_inj {r r' : Vec × Vec} (h : pair r = pair r') : r = r' := by
  unfold pair at h
  injection h with h
  injection h with h1 h
  injection h with h2 h
  injection h1 with h1
  injection h2 with h2
  exact Prod.ext h1 h2

theorem given_pair {run : Nat → Res Calc.Val} {r : Except PyErr (Vec × Vec)} {pos ori : Vec}
    (h : Calc.Gives run (some (r.map pair))) (h' : Calc.Gives run (some (.ok (pair (pos, ori))))) : r = .ok (pos, ori) := by
  have e := C78_one_result h h'
  injection e with e
  rcases r with _ | r
  · cases e
  · injection e with e
    rw [pair_inj e]

/-- What `drm_fpw` and `drm_fvw` return in the source text: within the bounds of C62, component by component where it is
finite. -/
theorem C78_world_near (M : Machine) {pv vv av ov : Calc.Val} {p v a o : Vec} (dt : F64) (hp : IsArray pv p)
    (hv : IsArray vv v) (ha : IsArray av a) (ho : IsArray ov o) (pos ori : Vec) (i : Fin 3) (hf : (pos i).Finite) :
    (Calc.Gives (dr M N.drm_fpw [pv, vv, .float dt, ov]) (some (.ok (pair (pos, ori)))) →
      |ofDouble (pos i) - (ofDouble (p i) + ofDouble (v i) * ofDouble dt)|
        ≤ 1 / 2 ^ 53 * |ofDouble (p i) + ofDouble (v i) * ofDouble dt|
          + 1 / 2 ^ 52 * |ofDouble (v i) * ofDouble dt| + 1 / 2 ^ 1074 ∧ ori = o) ∧
    (M.SquareOk → Calc.Gives (dr M N.drm_fvw [pv, vv, av, .float dt, ov]) (some (.ok (pair (pos, ori)))) →
      |ofDouble (pos i) - (ofDouble (p i) + ofDouble (v i) * ofDouble dt + ofDouble (a i) * ofDouble dt ^ 2 / 2)|
        ≤ 1 / 2 ^ 50 * (|ofDouble (p i)| + |ofDouble (v i) * ofDouble dt| + |ofDouble (a i) * ofDouble dt ^ 2 / 2|)
          + 1 / 2 ^ 1072 * (1 + |ofDouble (a i)| + ofDouble dt ^ 2) ∧ ori = o) := by
  obtain ⟨-, g1, -, -, g2, -⟩ := C78_dead_reckoning M dt hp hv ha ho ho
  refine ⟨fun h => ?_, fun hM h => ?_⟩
  · have e := given_pair (r := .ok (Dbl.drm_fpw p v dt o)) g1 h
    injection e with e
    have := C62_fpw p v o dt i (by rw [e]; exact hf)
    rw [e] at this
    exact this
  · exact C62_fvw M.toPlatform hM p v a o pos ori dt (given_pair g2 h) i hf

/-- What `drm_fpb` and `drm_fvb` return in the source text: within the bounds of C64, for finite angles. -/
theorem C78_body_near (M : Machine) (hT : M.TrigOk) (hV : M.MatvecOk) {pv vv av ov : Calc.Val} {p v a o : Vec} (dt : F64)
    (hp : IsArray pv p) (hv : IsArray vv v) (ha : IsArray av a) (ho : IsArray ov o) (fo : ∀ k, (o k).Finite)
    (pos ori : Vec) (i : Fin 3) (hf : (pos i).Finite) :
    (Calc.Gives (dr M N.drm_fpb [pv, vv, .float dt, ov]) (some (.ok (pair (pos, ori)))) →
      |ofDouble (pos i) - (ofDouble (p i)
          + (attitude (fun k => ofDouble (o k))).mulVec (fun k => ofDouble (v k)) i * ofDouble dt)|
        ≤ 1 / 2 ^ 53 * |ofDouble (p i)|
          + 1 / 2 ^ 47 * (|ofDouble (v 0)| + |ofDouble (v 1)| + |ofDouble (v 2)|) * |ofDouble dt|
          + 1 / 2 ^ 1069 * (1 + |ofDouble dt|) ∧ ori = o) ∧
    (M.SquareOk → dt.Finite → Calc.Gives (dr M N.drm_fvb [pv, vv, av, .float dt, ov]) (some (.ok (pair (pos, ori)))) →
      |ofDouble (pos i) - (ofDouble (p i)
          + (attitude (fun k => ofDouble (o k))).mulVec (fun k => ofDouble (v k) * ofDouble dt
            + ofDouble (a k) * ofDouble dt ^ 2 / 2) i)|
        ≤ 1 / 2 ^ 53 * |ofDouble (p i)|
          + 1 / 2 ^ 47 * ((|ofDouble (v 0) * ofDouble dt| + |ofDouble (a 0) * ofDouble dt ^ 2 / 2|)
            + (|ofDouble (v 1) * ofDouble dt| + |ofDouble (a 1) * ofDouble dt ^ 2 / 2|)
            + (|ofDouble (v 2) * ofDouble dt| + |ofDouble (a 2) * ofDouble dt ^ 2 / 2|))
          + 1 / 2 ^ 1069 * (1 + |ofDouble (a 0)| + |ofDouble (a 1)| + |ofDouble (a 2)| + ofDouble dt ^ 2) ∧ ori = o) := by
  obtain ⟨-, -, -, -, -, g1, -, -, g2⟩ := C78_dead_reckoning M dt hp hv ha ho ho
  exact ⟨fun h => C64_fpb M.toPlatform hT hV p v o pos ori dt fo (given_pair g1 h) i hf,
    fun hQ hd h => C64_fvb M.toPlatform hT hV hQ p v a o pos ori dt fo hd (given_pair g2 h) i hf⟩

/-- The rotating algorithms return the position of those that do not rotate, in the source text. -/
theorem C78_rotating (M : Machine) {pv vv av ov wv : Calc.Val} {p v a o w : Vec} (dt : F64) (hp : IsArray pv p)
    (hv : IsArray vv v) (ha : IsArray av a) (ho : IsArray ov o) (hw : IsArray wv w) (pos ori : Vec) :
    (Calc.Gives (dr M N.drm_rpw [pv, vv, .float dt, ov, wv]) (some (.ok (pair (pos, ori)))) →
      Calc.Gives (dr M N.drm_fpw [pv, vv, .float dt, ov]) (some (.ok (pair (pos, o))))) ∧
    (Calc.Gives (dr M N.drm_rvw [pv, vv, av, .float dt, ov, wv]) (some (.ok (pair (pos, ori)))) →
      Calc.Gives (dr M N.drm_fvw [pv, vv, av, .float dt, ov]) (some (.ok (pair (pos, o))))) ∧
    (Calc.Gives (dr M N.drm_rpb [pv, vv, .float dt, ov, wv]) (some (.ok (pair (pos, ori)))) →
      Calc.Gives (dr M N.drm_fpb [pv, vv, .float dt, ov]) (some (.ok (pair (pos, o))))) ∧
    (Calc.Gives (dr M N.drm_rvb [pv, vv, av, .float dt, ov, wv]) (some (.ok (pair (pos, ori)))) →
      Calc.Gives (dr M N.drm_fvb [pv, vv, av, .float dt, ov]) (some (.ok (pair (pos, o))))) := by
  obtain ⟨-, g1, g2, g3, g4, g5, g6, g7, g8⟩ := C78_dead_reckoning M dt hp hv ha ho hw
  refine ⟨fun h => ?_, fun h => ?_, fun h => ?_, fun h => ?_⟩
  · have e := C62_rpw M.toPlatform p v o w pos ori dt (given_pair g2 h)
    rw [show Dbl.drm_fpw p v dt o = (pos, o) from Prod.ext e.symm rfl] at g1
    exact g1
  · rw [C62_rvw M.toPlatform p v a o w pos ori dt (given_pair g3 h)] at g4
    exact g4
  · rw [((C64_rotating M.toPlatform p v a o w pos ori v dt).1.1 (given_pair g6 h)).1] at g5
    exact g5
  · rw [((C64_rotating M.toPlatform p v a o w pos ori v dt).2.1 (given_pair g7 h)).1] at g8
    exact g8

/-- `get_rotation_matrix` of Python floats: for finite angles a matrix of finite numbers within 2^-48 of the attitude, a
`ValueError` exactly if an angle is infinite. -/
theorem C78_rotation (M : Machine) (psi theta phi : F64) :
    (M.TrigOk → psi.Finite → theta.Finite → phi.Finite → ∃ R : Mat,
      Calc.Gives (dr M N.get_rotation_matrix [.float psi, .float theta, .float phi]) (some (.ok (.mat R))) ∧
      ∀ i j, (R i j).Finite ∧
        |ofDouble (R i j) - attitude ![ofDouble psi, ofDouble theta, ofDouble phi] i j| ≤ 1 / 2 ^ 48) ∧
    (∀ e, Calc.Gives (dr M N.get_rotation_matrix [.float psi, .float theta, .float phi]) (some (.error e)) ↔
      e = .valueError ∧ (psi.Infinite ∨ theta.Infinite ∨ phi.Infinite)) := by
  have g : Calc.Gives (dr M N.get_rotation_matrix [.float psi, .float theta, .float phi])
      (some ((Dbl.get_rotation_matrix M.toPlatform psi theta phi).map .mat)) :=
    gives_of 1 fun n => get_rotation_matrix_floats M n psi theta phi
  refine ⟨fun hT h1 h2 h3 => ?_, fun e => ?_⟩
  · obtain ⟨R, e, h⟩ := C64_matrix M.toPlatform hT psi theta phi h1 h2 h3
    rw [e] at g
    exact ⟨R, g, h⟩
  · rw [← Dbl.rotation_error (P := M.toPlatform) (psi := psi) (theta := theta) (phi := phi) e]
    refine ⟨fun h => ?_, fun h => by rw [h] at g; exact g⟩
    have e' := C78_one_result g h
    injection e' with e'
    generalize Dbl.get_rotation_matrix M.toPlatform psi theta phi = r at *
    cases r with
    | error x => injection e' with e'; rw [e']
    | ok x => cases e'

/-- `get_angular_velocity_matrix` of an array: the product of the matrix it returns with a vector is exactly the cross product
with the angular velocity. -/
theorem C78_skew (M : Machine) (w : Vec) : ∃ R : Mat,
    Calc.Gives (dr M N.get_angular_velocity_matrix [.arr w]) (some (.ok (.mat R))) ∧
    ∀ v : Fin 3 → ℝ, (fun i => ofDouble (R i 0) * v 0 + ofDouble (R i 1) * v 1 + ofDouble (R i 2) * v 2)
      = crossProduct (fun i => ofDouble (w i)) v := by
  refine ⟨_, gives_of 1 fun n => get_angular_velocity_matrix_runs M n w, fun v => ?_⟩
  funext i
  match i with
  | 0 =>
    show ofDouble (num 0) * v 0 + ofDouble (F64.neg (w 2)) * v 1 + ofDouble (w 1) * v 2 = _
    rw [num_zero.2, Geo.val_neg]
    simp [crossProduct]
    ring
  | 1 =>
    show ofDouble (w 2) * v 0 + ofDouble (num 0) * v 1 + ofDouble (F64.neg (w 0)) * v 2 = _
    rw [num_zero.2, Geo.val_neg]
    simp [crossProduct]
    ring
  | 2 =>
    show ofDouble (F64.neg (w 1)) * v 0 + ofDouble (w 0) * v 1 + ofDouble (num 0) * v 2 = _
    rw [num_zero.2, Geo.val_neg]
    simp [crossProduct]
    ring

/-! ## Cases -/

/-- Straight up and on its side: the angles (0, -1, 1) give a matrix; an infinite heading raises. -/
example : (∃ R : Mat, Calc.Gives (dr referenceMachine N.get_rotation_matrix
      [.float 0, .float 0xbff0000000000000, .float 0x3ff0000000000000]) (some (.ok (.mat R)))) ∧
    Calc.Gives (dr referenceMachine N.get_rotation_matrix [.float 0x7ff0000000000000, .float 0, .float 0])
      (some (.error .valueError)) := by
  refine ⟨?_, ((C78_rotation referenceMachine 0x7ff0000000000000 0 0).2 .valueError).2 ⟨rfl, .inl ⟨by decide, by decide⟩⟩⟩
  obtain ⟨R, g, -⟩ := (C78_rotation referenceMachine 0 0xbff0000000000000 0x3ff0000000000000).1 referenceNumpy_accurate.trig
    (show F64.expo _ ≠ 2047 by decide +kernel) (show F64.expo _ ≠ 2047 by decide +kernel) (show F64.expo _ ≠ 2047 by decide +kernel)
  exact ⟨R, g⟩

/-- Two points in the plane that are 5 m apart; the second as a tuple. -/
example : ∃ d, Calc.Gives (Calc.range referenceMachine N.euclideanDistance [seq false ([num 1, num 2].map .float),
      seq true ([num 4, num 6, num 7].map .float)]) (some d) ∧
    Calc.Gives (Calc.range referenceMachine N.euclideanDistance
      [seq true ((List.zipWith F64.sub [num 1, num 2] [num 4, num 6, num 7]).map .float)]) (some d) :=
  (C78_distance_difference referenceMachine false true true [num 1, num 2] [num 4, num 6, num 7]).1 (by decide)

/-- A point in space and one in the plane. -/
example : Calc.Gives (Calc.range referenceMachine N.euclideanDistance [seq false ([num 1, num 2, num 3].map .float),
      seq true ([num 4, num 6].map .float)]) (some (.error .indexError)) :=
  (C78_distance_difference referenceMachine false true true [num 1, num 2, num 3] [num 4, num 6]).2 (fun x => ⟨F64.mul x x, rfl⟩)
    (by decide)

/-- The distance of (3, 4, 12) from the origin. -/
example : ∃ p, Calc.Gives (Calc.range referenceMachine N.euclideanDistance
      [coords false ![0x4008000000000000, 0x4010000000000000, 0x4028000000000000], coords true ![0, 0, 0]]) (some (.ok (.float p))) ∧
    |ofDouble p - 13| ≤ 2e-14 := by
  have p0 : ofDouble 0x4008000000000000 = 3 := by
    rw [Geo.val_units (m := 3) 1074 0 (by decide +kernel) rfl]; norm_num
  have p1 : ofDouble 0x4010000000000000 = 4 := by
    rw [Geo.val_units (m := 4) 1074 0 (by decide +kernel) rfl]; norm_num
  have p2 : ofDouble 0x4028000000000000 = 12 := by
    rw [Geo.val_units (m := 12) 1074 0 (by decide +kernel) rfl]; norm_num
  have o0 : ofDouble 0 = 0 := by
    rw [Geo.val_units (m := 0) 1074 0 (by decide +kernel) rfl]; norm_num
  obtain ⟨p, g, -, h⟩ := C78_distance_near referenceMachine referenceNumpy_accurate.square referenceNumpy_accurate.squareReturns
    referenceNumpy_accurate.squareNonneg false true ![0x4008000000000000, 0x4010000000000000, 0x4028000000000000] ![0, 0, 0]
    (fun i => by match i with | 0 | 1 | 2 => exact show F64.expo _ ≠ 2047 by decide +kernel)
    (fun i => by match i with | 0 | 1 | 2 => exact show F64.expo _ ≠ 2047 by decide +kernel) 13 (by
      show (13 : ℝ) = Real.sqrt ((ofDouble 0x4008000000000000 - ofDouble 0) ^ 2 + (ofDouble 0x4010000000000000 - ofDouble 0) ^ 2
        + (ofDouble 0x4028000000000000 - ofDouble 0) ^ 2)
      rw [p0, p1, p2, o0, show ((3 : ℝ) - 0) ^ 2 + (4 - 0) ^ 2 + (12 - 0) ^ 2 = 13 ^ 2 by norm_num]
      exact (Real.sqrt_sq (by norm_num)).symm) (by norm_num)
  exact ⟨p, g, h.trans (by norm_num)⟩

/-- There and back over the north pole, through the source. -/
example : ∃ ned ecef',
    Calc.Gives (gps referenceMachine N.ecef2ned [coords true ![0x4008000000000000, 0x4010000000000000, 0x41583fce00000000],
        coords false ![0, 0, 0x41583fcb00000000]]) (some (.ok (npList ned))) ∧
      Calc.Gives (gps referenceMachine N.ned2ecef [npList ned, coords false ![0, 0, 0x41583fcb00000000]])
        (some (.ok (npList ecef'))) ∧ |ofDouble (ecef' 0) - 3| ≤ 4e-13 := by
  obtain ⟨-, -, -, -, -, ned, ecef', e1, e2, h⟩ := pole_range
  refine ⟨ned, ecef', ?_, ?_, h⟩
  · have g := (C78_frames referenceMachine true false (num 0) (num 0)
      ![0x4008000000000000, 0x4010000000000000, 0x41583fce00000000] ![0, 0, 0x41583fcb00000000]).2.2.1
    have e : Dbl.ecef2ned referenceMachine.toLibm _ _ = some (.ok ned) := e1
    rw [e] at g
    exact g
  · have g := (C78_frames_numpy referenceMachine false ned ![0, 0, 0x41583fcb00000000]).2
    have e : Dbl.ned2ecef referenceMachine.toLibm _ _ = some (.ok ecef') := e2
    rw [e] at g
    exact g

/-- 48.5° north, 2.25° east: the source returns a point of UTM zone 31 U, within 46 nm of the exact one. -/
example : ∃ x y k zone letter, Calc.Gives (gps referenceMachine N.lla2utm
      [point ![0x4048400000000000, 0x4002000000000000, 0x4041800000000000]])
    (some (.ok (.tuple [.list [.float x, .float y, .float 0x4041800000000000], .list [.str (toString zone ++ letter.toString), .float k]]))) ∧
    (zone, letter) = (Geo.lla2utm ![ofDouble 0x4048400000000000, ofDouble 0x4002000000000000, 35]).zone ∧
    |ofDouble x - (Geo.lla2utm ![ofDouble 0x4048400000000000, ofDouble 0x4002000000000000, 35]).utm 0| ≤ 3.8e-8 ∧
    |ofDouble y - (Geo.lla2utm ![ofDouble 0x4048400000000000, ofDouble 0x4002000000000000, 35]).utm 1| ≤ 4.6e-8 := by
  have v0 : ofDouble 0x4048400000000000 = 48.5 := by
    rw [Geo.val_units (m := 97) 1073 1 (by decide +kernel) rfl]; norm_num
  have v1 : ofDouble 0x4002000000000000 = 2.25 := by
    rw [Geo.val_units (m := 9) 1072 2 (by decide +kernel) rfl]; norm_num
  obtain ⟨x, y, k, zone, letter, g, hz, -, hx, -, hy, -⟩ := C78_utm_near referenceMachine referenceCMath_accurate
    ![0x4048400000000000, 0x4002000000000000, 0x4041800000000000]
    (show F64.expo _ ≠ 2047 by decide +kernel) (show F64.expo _ ≠ 2047 by decide +kernel)
    (show |ofDouble 0x4048400000000000| ≤ 84 by rw [v0]; norm_num [abs_le])
    (show -180 ≤ ofDouble 0x4002000000000000 by rw [v1]; norm_num)
    (show ofDouble 0x4002000000000000 ≤ 180 by rw [v1]; norm_num) 35
    (fun k => by
      show ofDouble 0x4002000000000000 ≤ _ ∨ _ ≤ ofDouble 0x4002000000000000
      rw [v1]
      rcases le_or_gt k 0 with h | h
      · right
        have : (k : ℝ) ≤ 0 := by exact_mod_cast h
        linarith
      · left
        have : (1 : ℝ) ≤ k := by exact_mod_cast h
        norm_num
        linarith)
  exact ⟨x, y, k, zone, letter, g, hz, hx, hy⟩

/-- A longitude that is not a number, and minus infinity. -/
example : Calc.Gives (gps referenceMachine N.lla2utm [point ![0, 0x7ff8000000000000, 0]]) (some (.error .valueError)) ∧
    Calc.Gives (gps referenceMachine N.lla2utm [point ![0, 0xfff0000000000000, 0]]) (some (.error .overflowError)) :=
  ⟨(C78_utm_raises referenceMachine ![0, 0x7ff8000000000000, 0]).1 (by decide +kernel),
    (C78_utm_raises referenceMachine ![0, 0xfff0000000000000, 0]).2 ⟨by decide, by decide⟩⟩

/-- At the equator. -/
example : ∃ g, Calc.Gives (wgs84 referenceMachine N.g0 [.float 0]) (some (.ok (.float g))) ∧ |ofDouble g - 9.7803267715| ≤ 6e-15 := by
  have o0 : ofDouble 0 = 0 := by
    rw [Geo.val_units (m := 0) 1074 0 (by decide +kernel) rfl]; norm_num
  obtain ⟨g, e, -, h⟩ := C78_gravity referenceMachine referenceNumpy_accurate.square referenceNumpy_accurate.squareReturns
    referenceNumpy_accurate.trig 0 (show F64.expo _ ≠ 2047 by decide +kernel)
  rw [o0, Real.sin_zero] at h
  refine ⟨g, e, ?_⟩
  norm_num at h ⊢
  exact h

/-- At 6378137 m on each axis, with a velocity of 3 m/s forward, after 0.2 s: the source returns a finite position, which is
within the bounds, whatever the attitude. -/
example (o : Vec) (ho : ∀ k, (o k).Finite) : ∃ pos,
    Calc.Gives (dr referenceMachine N.drm_fpb [.arr (fun _ => 0x415854a640000000),
      .arr (fun i => match i with | 0 => 0x4008000000000000 | 1 => 0 | 2 => 0), .float 0x3fc999999999999a, .arr o])
      (some (.ok (pair (pos, o)))) ∧ ∀ i,
      |ofDouble (pos i) - (ofDouble 0x415854a640000000
          + (attitude (fun k => ofDouble (o k))).mulVec (fun k => ofDouble (match k with | 0 => 0x4008000000000000 | 1 => 0 | 2 => 0)) i
            * ofDouble 0x3fc999999999999a)|
        ≤ 1 / 2 ^ 53 * |ofDouble 0x415854a640000000|
          + 1 / 2 ^ 47 * (|ofDouble 0x4008000000000000| + |ofDouble 0| + |ofDouble 0|) * |ofDouble 0x3fc999999999999a|
          + 1 / 2 ^ 1069 * (1 + |ofDouble 0x3fc999999999999a|) := by
  have f : ∀ x : F64, x.expo ≠ 2047 → x.Finite := fun _ h => h
  obtain ⟨pos, e, hf⟩ := Geo.reference_fpb ho (p := fun _ => 0x415854a640000000)
    (v := fun i => match i with | 0 => 0x4008000000000000 | 1 => 0 | 2 => 0) (dt := 0x3fc999999999999a)
    (fun k => ⟨f _ (by decide), Geo.abs_le_pow _ 40 (by decide +kernel)⟩)
    (fun k => by
      match k with
      | 0 => exact ⟨f _ (by decide), Geo.abs_le_pow _ 40 (by decide +kernel)⟩
      | 1 => exact ⟨f _ (by decide), Geo.abs_le_pow _ 40 (by decide +kernel)⟩
      | 2 => exact ⟨f _ (by decide), Geo.abs_le_pow _ 40 (by decide +kernel)⟩)
    ⟨f _ (by decide), Geo.abs_le_pow _ 40 (by decide +kernel)⟩
  have hp := (C78_arrays true (fun _ => 0x415854a640000000)).1
  have hv := (C78_arrays true (fun i => match i with | 0 => 0x4008000000000000 | 1 => 0 | 2 => 0)).1
  have h3 := (C78_arrays true o).1
  have g := (C78_dead_reckoning referenceMachine 0x3fc999999999999a hp hv hv h3 h3).2.2.2.2.2.1
  have e' : Dbl.drm_fpb referenceMachine.toPlatform _ _ _ o = .ok (pos, o) := e
  rw [e'] at g
  exact ⟨pos, g, fun i => ((C78_body_near referenceMachine referenceNumpy_accurate.trig referenceNumpy_accurate.matvec _ hp hv hv h3 ho
    pos o i (hf i)).1 g).1⟩

/-- The example of C78, (1, 2, 3) with velocity (10, 0, 0) for two seconds: (21, 2, 3) is finite and within the bound, and an
entity that turns comes to the same place. -/
example (w ori : Vec) (pos : Vec)
    (h : Calc.Gives (dr referenceMachine N.drm_rpw [coords false ![num 1, num 2, num 3], coords false ![num 10, num 0, num 0],
      .float (num 2), coords true ![num 0, num 0, num 0], .arr w]) (some (.ok (pair (pos, ori))))) :
    pos 0 = num 21 ∧ |ofDouble (num 21) - (ofDouble (num 1) + ofDouble (num 10) * ofDouble (num 2))|
      ≤ 1 / 2 ^ 53 * |ofDouble (num 1) + ofDouble (num 10) * ofDouble (num 2)|
        + 1 / 2 ^ 52 * |ofDouble (num 10) * ofDouble (num 2)| + 1 / 2 ^ 1074 := by
  have a1 := (C78_arrays false ![num 1, num 2, num 3]).2
  have a2 := (C78_arrays false ![num 10, num 0, num 0]).2
  have a3 := (C78_arrays true ![num 0, num 0, num 0]).2
  have g := (C78_rotating referenceMachine (num 2) a1 a2 a2 a3 (C78_arrays true w).1 pos ori).1 h
  have e := given_pair (r := .ok (Dbl.drm_fpw _ _ (num 2) _)) (C78_dead_reckoning referenceMachine (num 2) a1 a2 a2 a3 a3).2.1 g
  injection e with e
  have e0 : pos 0 = num 21 := by
    rw [← show (Dbl.drm_fpw ![num 1, num 2, num 3] ![num 10, num 0, num 0] (num 2) ![num 0, num 0, num 0]).1 = pos by rw [e]]
    exact sums.2.2.1
  refine ⟨e0, ?_⟩
  have := ((C78_world_near referenceMachine (num 2) a1 a2 a2 a3 pos _ 0 (by rw [e0]; exact (Ap.num (n := 21) (by decide)).1)).1 g).1
  rw [e0] at this
  exact this

end Dis
