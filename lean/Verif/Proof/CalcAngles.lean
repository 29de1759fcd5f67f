import Verif.Proof.CalcTurn

/-!
# What the trees of `llarpy2ecef`, `ecef2llarpy` and `ecef2pae` do

These square numpy's floats, which does not raise; the model's `square` may. Where the model's square is numpy's, they agree.
-/

namespace Dis.Calc
open Dbl
set_option exponentiation.threshold 3000
attribute [local irreducible] num classAttr Dbl.lla2ecef Dbl.rotate_3x3 Dbl.ecefvec2nedvec

/-- `angles` with numpy's squares, which do not raise. -/
def npAngles (M : Machine) (x3 y3 X0 Y0 Z0 : Vec) : Except PyErr Vec := do
  let first := M.atan2 (M.dot x3 Y0) (M.dot x3 X0)
  let r ← F64.sqrt (F64.add (M.npSquare (M.dot x3 X0)) (M.npSquare (M.dot x3 Y0)))
  let second := M.atan2 (F64.neg (M.dot x3 Z0)) r
  let R1 ← rotate_3x3 M.toPlatform first Z0
  let Y2 := M.matvec R1 Y0
  let R2 ← rotate_3x3 M.toPlatform second Y2
  let Z2 := M.matvec R2 Z0
  let third := M.atan2 (M.dot y3 Z2) (M.dot y3 Y2)
  return ![first, second, third]

/-- `llarpy2ecef` with numpy's squares. -/
def npLlarpy (M : Machine) (lat lon alt roll pitch yaw : F64) : Except PyErr (Vec × Vec) := do
  let XYZ ← lla2ecef M.toPlatform ![rad2deg lat, rad2deg lon, alt]
  let a0 ← ecefvec2nedvec M.toPlatform lat lon
  let q ← turned M.toPlatform yaw pitch roll (a0 0) (a0 1) (a0 2)
  let euler ← npAngles M q.1 q.2 ![num 1, num 0, num 0] ![num 0, num 1, num 0] ![num 0, num 0, num 1]
  return (XYZ, euler)

theorem llarpy2ecef_np {O : Ops} (h : Ops.ieee = O) (M : Machine) (n : Nat) (lat lon alt roll pitch yaw : F64) :
    (calls O M rangeCoordinates (n + 3)).method N.GPS N.llarpy2ecef
        [.float lat, .float lon, .float alt, .float roll, .float pitch, .float yaw]
      = up ((npLlarpy M lat lon alt roll pitch yaw).map six) := by
  rw [method_eq rfl rfl]
  have h1 (x y z : F64) : (calls O M rangeCoordinates (n + 2)).method N.GPS N.lla2ecef [.tuple [.float x, .float y, .float z]]
      = up ((lla2ecef M.toPlatform ![x, y, z]).map point) := lla2ecef_runs h M n ![x, y, z]
  have h2 := ecefvec2nedvec_runs h M (n + 1)
  have h3 := rotate_3x3_runs h M n
  have h4 := rotate_int_runs h M n
  have h5 := rad2deg_runs h M (n + 1)
  generalize calls O M rangeCoordinates (n + 2) = C at *
  calc_ops h [npLlarpy, turned, npAngles, rad2deg] at h1 h2 h3 h4 h5 ⊢
  calc_run h [h1, h2, h3, h4, h5]

theorem units_eq : unit 0 = ![num 1, num 0, num 0] ∧ unit 1 = ![num 0, num 1, num 0] ∧ unit 2 = ![num 0, num 0, num 1] := by
  refine ⟨?_, ?_, ?_⟩ <;> funext j <;> match j with | 0 | 1 | 2 => rfl

theorem npAngles_ok {M : Machine} (hsq : ∀ x y, M.square x = .ok y → M.npSquare x = y) {x3 y3 X0 Y0 Z0 r : Vec}
    (h : angles (withDot M) x3 y3 X0 Y0 Z0 = .ok r) : npAngles M x3 y3 X0 Y0 Z0 = .ok r := by
  unfold angles at h
  unfold npAngles
  cases h1 : M.square (M.dot x3 X0) with
  | error e => rw [show (withDot M).square = M.square from rfl, show (withDot M).dot = M.dot from rfl, h1] at h; cases h
  | ok x =>
    cases h2 : M.square (M.dot x3 Y0) with
    | error e => rw [show (withDot M).square = M.square from rfl, show (withDot M).dot = M.dot from rfl, h1, h2] at h; cases h
    | ok y =>
      rw [show (withDot M).square = M.square from rfl, show (withDot M).dot = M.dot from rfl, h1, h2] at h
      rw [hsq _ _ h1, hsq _ _ h2]
      exact h

theorem npLlarpy_ok {M : Machine} (hsq : ∀ x y, M.square x = .ok y → M.npSquare x = y) {lat lon alt roll pitch yaw : F64}
    {r : Vec × Vec} (hr : llarpy2ecef (withDot M) lat lon alt roll pitch yaw = .ok r) :
    npLlarpy M lat lon alt roll pitch yaw = .ok r := by
  unfold llarpy2ecef at hr
  unfold npLlarpy
  rw [units_eq.1, units_eq.2.1, units_eq.2.2] at hr
  change (lla2ecef M.toPlatform ![rad2deg lat, rad2deg lon, alt] >>= fun XYZ =>
    ecefvec2nedvec M.toPlatform lat lon >>= fun a0 => turned M.toPlatform yaw pitch roll (a0 0) (a0 1) (a0 2) >>= fun q =>
    angles (withDot M) q.1 q.2 ![num 1, num 0, num 0] ![num 0, num 1, num 0] ![num 0, num 0, num 1] >>= fun euler =>
    .ok (XYZ, euler)) = _ at hr
  generalize lla2ecef M.toPlatform ![rad2deg lat, rad2deg lon, alt] = w1 at *
  rcases w1 with _ | XYZ
  · cases hr
  generalize ecefvec2nedvec M.toPlatform lat lon = w2 at *
  rcases w2 with _ | a0
  · cases hr
  change (turned M.toPlatform yaw pitch roll (a0 0) (a0 1) (a0 2) >>= fun q =>
    angles (withDot M) q.1 q.2 ![num 1, num 0, num 0] ![num 0, num 1, num 0] ![num 0, num 0, num 1] >>= fun euler =>
    .ok (XYZ, euler)) = _ at hr
  change (turned M.toPlatform yaw pitch roll (a0 0) (a0 1) (a0 2) >>= fun q =>
    npAngles M q.1 q.2 ![num 1, num 0, num 0] ![num 0, num 1, num 0] ![num 0, num 0, num 1] >>= fun euler =>
    .ok (XYZ, euler)) = _
  generalize turned M.toPlatform yaw pitch roll (a0 0) (a0 1) (a0 2) = w3 at *
  rcases w3 with _ | q
  · cases hr
  change (angles (withDot M) q.1 q.2 ![num 1, num 0, num 0] ![num 0, num 1, num 0] ![num 0, num 0, num 1] >>= fun euler =>
    .ok (XYZ, euler)) = _ at hr
  change (npAngles M q.1 q.2 ![num 1, num 0, num 0] ![num 0, num 1, num 0] ![num 0, num 0, num 1] >>= fun euler =>
    .ok (XYZ, euler)) = _
  cases ha : angles (withDot M) q.1 q.2 ![num 1, num 0, num 0] ![num 0, num 1, num 0] ![num 0, num 0, num 1] with
  | error e => rw [ha] at hr; cases hr
  | ok v => rw [ha] at hr; rw [npAngles_ok hsq ha]; exact hr

theorem llarpy2ecef_runs {O : Ops} (h : Ops.ieee = O) (M : Machine) (hsq : ∀ x y, M.square x = .ok y → M.npSquare x = y)
    (n : Nat) (lat lon alt roll pitch yaw : F64) (r : Vec × Vec)
    (hr : llarpy2ecef (withDot M) lat lon alt roll pitch yaw = .ok r) :
    (calls O M rangeCoordinates (n + 3)).method N.GPS N.llarpy2ecef
        [.float lat, .float lon, .float alt, .float roll, .float pitch, .float yaw] = .ok (six r) := by
  rw [llarpy2ecef_np h, npLlarpy_ok hsq hr]
  rfl

/-- `ecef2llarpy_rest` with numpy's squares. -/
def npRest (M : Machine) (lla : Vec) (psi theta phi : F64) : Except PyErr (Vec × Vec) := do
  let q ← turned M.toPlatform psi theta phi ![num 1, num 0, num 0] ![num 0, num 1, num 0] ![num 0, num 0, num 1]
  let a0 ← ecefvec2nedvec M.toPlatform (deg2rad (lla 0)) (deg2rad (lla 1))
  let ypr ← npAngles M q.1 q.2 (a0 0) (a0 1) (a0 2)
  return (![deg2rad (lla 0), deg2rad (lla 1), lla 2], ![ypr 2, ypr 1, ypr 0])

theorem ecef2llarpy_np {O : Ops} (h : Ops.ieee = O) (M : Machine) (X Y Z psi theta phi : F64) :
    Gives (fun n => (calls O M rangeCoordinates n).method N.GPS N.ecef2llarpy
        [.float X, .float Y, .float Z, .float psi, .float theta, .float phi])
      ((ecef2lla M.toLibm ![X, Y, Z] defaultTolerance).map fun q => q.bind fun lla => (npRest M lla psi theta phi).map six) := by
  have hg := ecef2lla_default_gives h M true ![X, Y, Z]
  refine Gives.step (run' := fun n => (calls O M rangeCoordinates n).method N.GPS N.ecef2llarpy
        [.float X, .float Y, .float Z, .float psi, .float theta, .float phi])
    (fun lla => (npRest M lla psi theta phi).map six) hg rfl ?_ ?_
  · intro n e he
    change (calls O M rangeCoordinates n).method N.GPS N.ecef2lla [.tuple [.float X, .float Y, .float Z]] = _ at he
    rw [method_eq rfl rfl]
    generalize calls O M rangeCoordinates n = C at *
    calc_run h [he]
  · intro n v hn he
    change (calls O M rangeCoordinates n).method N.GPS N.ecef2lla [.tuple [.float X, .float Y, .float Z]] = _ at he
    rw [method_eq rfl rfl]
    obtain ⟨m, rfl⟩ : ∃ m, n = m + 2 := ⟨n - 2, by omega⟩
    have h2 := ecefvec2nedvec_runs h M (m + 1)
    have h3 := rotate_3x3_runs h M m
    have h4 := rotate_int_runs h M m
    have h5 := deg2rad_runs h M (m + 1)
    generalize calls O M rangeCoordinates (m + 2) = C at *
    calc_ops h [npRest, turned, npAngles, deg2rad] at h2 h3 h4 h5 ⊢
    calc_run h [he, h2, h3, h4, h5]

theorem euclid_np {O : Ops} (h : Ops.ieee = O) (M : Machine) (n : Nat) (v : Vec) :
    (calls O M rangeCoordinates (n + 1)).fn N.euclideanDistance [npList v]
      = up ((F64.sqrt (F64.add (F64.add (F64.add (num 0) (M.npSquare (v 0))) (M.npSquare (v 1))) (M.npSquare (v 2)))).map .float) := by
  calc_ops h [id]
  calc_run h []

/-- `ned2pae` with numpy's squares. -/
def npPae (M : Machine) (ned : Vec) : Except PyErr Vec := do
  let p ← F64.sqrt (F64.add (F64.add (F64.add (num 0) (M.npSquare (ned 0))) (M.npSquare (ned 1))) (M.npSquare (ned 2)))
  let alpha := M.atan2 (ned 1) (ned 0)
  let r ← F64.sqrt (F64.add (M.npSquare (ned 0)) (M.npSquare (ned 1)))
  let epsilon := M.atan2 (F64.neg (ned 2)) r
  return ![p, rad2deg alpha, rad2deg epsilon]

theorem ned2pae_np {O : Ops} (h : Ops.ieee = O) (M : Machine) (n : Nat) (ned : Vec) :
    (calls O M rangeCoordinates (n + 2)).method N.GPS N.ned2pae [npList ned] = up ((npPae M ned).map (coords false)) := by
  rw [method_eq rfl rfl]
  have h1 := euclid_np h M n ned
  change (calls O M rangeCoordinates (n + 1)).fn N.euclideanDistance [.list [.np (ned 0), .np (ned 1), .np (ned 2)]] = _ at h1
  have h5 := rad2deg_runs h M n
  generalize calls O M rangeCoordinates (n + 1) = C at *
  calc_ops h [npPae, rad2deg] at h1 h5 ⊢
  calc_run h [h1, h5]

theorem npPae_ok {M : Machine} (hsq : ∀ x y, M.square x = .ok y → M.npSquare x = y) {ned r : Vec}
    (h : ned2pae M.toLibm ned = .ok r) : npPae M ned = .ok r := by
  unfold ned2pae euclideanDistance sumSquares sumSquares sumSquares sumSquares at h
  unfold npPae
  cases h0 : M.square (ned 0) with
  | error e => rw [h0] at h; cases h
  | ok x =>
    cases h1 : M.square (ned 1) with
    | error e => rw [h0, h1] at h; cases h
    | ok y =>
      cases h2 : M.square (ned 2) with
      | error e => rw [h0, h1, h2] at h; cases h
      | ok z =>
        rw [h0, h1, h2] at h
        rw [hsq _ _ h0, hsq _ _ h1, hsq _ _ h2]
        exact h

theorem ecef2pae_np {O : Ops} (h : Ops.ieee = O) (M : Machine) (b b' : Bool) (ecef origin : Vec) :
    Gives (fun n => (calls O M rangeCoordinates n).method N.GPS N.ecef2pae [coords b ecef, coords b' origin])
      ((ecef2ned M.toLibm ecef origin).map fun q => q.bind fun ned => (npPae M ned).map (coords false)) := by
  have hg := ecef2ned_gives h M b b' ecef origin
  refine Gives.step (run' := fun n => (calls O M rangeCoordinates n).method N.GPS N.ecef2pae [coords b ecef, coords b' origin])
    (fun ned => (npPae M ned).map (coords false)) hg rfl ?_ ?_
  · intro n e he
    rw [method_eq rfl rfl]
    generalize calls O M rangeCoordinates n = C at *
    calc_run h [he]
  · intro n v hn he
    rw [method_eq rfl rfl]
    obtain ⟨m, rfl⟩ : ∃ m, n = m + 2 := ⟨n - 2, by omega⟩
    have h2 := ned2pae_np h M m v
    generalize npPae M v = w at *
    generalize calls O M rangeCoordinates (m + 2) = C at *
    calc_run h [he, h2]

theorem ecef2pae_gives {O : Ops} (h : Ops.ieee = O) (M : Machine) (hsq : ∀ x y, M.square x = .ok y → M.npSquare x = y)
    (b b' : Bool) (ecef origin : Vec)
    (hok : ∀ ned e, ecef2ned M.toLibm ecef origin = some (.ok ned) → ned2pae M.toLibm ned ≠ .error e) :
    Gives (fun n => (calls O M rangeCoordinates n).method N.GPS N.ecef2pae [coords b ecef, coords b' origin])
      ((ecef2pae M.toLibm ecef origin).map (·.map (coords false))) := by
  refine Eq.mp (congrArg (Gives _) ?_) (ecef2pae_np h M b b' ecef origin)
  unfold ecef2pae
  generalize ecef2ned M.toLibm ecef origin = r at *
  rcases r with _ | _ | ned
  · rfl
  · rfl
  · cases hp : ned2pae M.toLibm ned with
    | error e => exact absurd hp (hok ned e rfl)
    | ok v =>
      change some ((npPae M ned).map (coords false)) = (Option.some (ned2pae M.toLibm ned)).map (·.map (coords false))
      rw [npPae_ok hsq hp, hp]
      rfl

theorem npRest_ok {M : Machine} (hsq : ∀ x y, M.square x = .ok y → M.npSquare x = y) {lla : Vec} {psi theta phi : F64}
    {r : Vec × Vec} (h : ecef2llarpy_rest (withDot M) lla psi theta phi = .ok r) : npRest M lla psi theta phi = .ok r := by
  unfold ecef2llarpy_rest at h
  unfold npRest
  rw [units_eq.1, units_eq.2.1, units_eq.2.2] at h
  change (turned M.toPlatform psi theta phi ![num 1, num 0, num 0] ![num 0, num 1, num 0] ![num 0, num 0, num 1] >>= fun q =>
    ecefvec2nedvec M.toPlatform (deg2rad (lla 0)) (deg2rad (lla 1)) >>= fun a0 =>
    angles (withDot M) q.1 q.2 (a0 0) (a0 1) (a0 2) >>= fun ypr =>
    .ok (![deg2rad (lla 0), deg2rad (lla 1), lla 2], ![ypr 2, ypr 1, ypr 0])) = _ at h
  generalize turned M.toPlatform psi theta phi ![num 1, num 0, num 0] ![num 0, num 1, num 0] ![num 0, num 0, num 1] = w1 at *
  rcases w1 with _ | q
  · cases h
  generalize ecefvec2nedvec M.toPlatform (deg2rad (lla 0)) (deg2rad (lla 1)) = w2 at *
  rcases w2 with _ | a0
  · cases h
  change (angles (withDot M) q.1 q.2 (a0 0) (a0 1) (a0 2) >>= fun ypr =>
    .ok (![deg2rad (lla 0), deg2rad (lla 1), lla 2], ![ypr 2, ypr 1, ypr 0])) = _ at h
  change (npAngles M q.1 q.2 (a0 0) (a0 1) (a0 2) >>= fun ypr =>
    .ok (![deg2rad (lla 0), deg2rad (lla 1), lla 2], ![ypr 2, ypr 1, ypr 0])) = _
  cases ha : angles (withDot M) q.1 q.2 (a0 0) (a0 1) (a0 2) with
  | error e => rw [ha] at h; cases h
  | ok v => rw [ha] at h; rw [npAngles_ok hsq ha]; exact h

theorem ecef2llarpy_gives {O : Ops} (h : Ops.ieee = O) (M : Machine) (hsq : ∀ x y, M.square x = .ok y → M.npSquare x = y)
    (X Y Z psi theta phi : F64)
    (hok : ∀ lla e, ecef2lla M.toLibm ![X, Y, Z] defaultTolerance = some (.ok lla) →
      ecef2llarpy_rest (withDot M) lla psi theta phi ≠ .error e) :
    Gives (fun n => (calls O M rangeCoordinates n).method N.GPS N.ecef2llarpy
        [.float X, .float Y, .float Z, .float psi, .float theta, .float phi])
      ((ecef2llarpy (withDot M) X Y Z psi theta phi).map (·.map six)) := by
  refine Eq.mp (congrArg (Gives _) ?_) (ecef2llarpy_np h M X Y Z psi theta phi)
  unfold ecef2llarpy
  change _ = (match ecef2lla M.toLibm ![X, Y, Z] defaultTolerance with
    | none => none
    | some (.error err) => some (.error err)
    | some (.ok lla) => some (ecef2llarpy_rest (withDot M) lla psi theta phi) : Option (Except PyErr (Vec × Vec))).map (·.map six)
  generalize ecef2lla M.toLibm ![X, Y, Z] defaultTolerance = r at *
  rcases r with _ | _ | lla
  · rfl
  · rfl
  · cases hp : ecef2llarpy_rest (withDot M) lla psi theta phi with
    | error e => exact absurd hp (hok lla e rfl)
    | ok v =>
      change some ((npRest M lla psi theta phi).map six)
        = (Option.some (ecef2llarpy_rest (withDot M) lla psi theta phi)).map (·.map six)
      rw [npRest_ok hsq hp, hp]
      rfl

end Dis.Calc
