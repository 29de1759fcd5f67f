import Verif.Py.Arith

/-!
# `opendis/DeadReckoning.py` in floating point

The functions of `Verif/Geo/DeadReckoning.lean` again, on doubles instead of real numbers, with the
operations in the order in which Python and numpy evaluate them. Vectors have exactly three components
of type `float`, and `dt` is a Python `float`.

What the C library and numpy's matrix product compute is not fixed by IEEE 754; it is a parameter,
`Platform`, about which the theorems assume only what they state.
-/

namespace Dis.Dbl

/-- A numpy vector of three doubles (`Vector`, `_to_numpy`, /repo/opendis/DeadReckoning.py:37-42). -/
abbrev Vec := Fin 3 → F64

/-- A 3x3 numpy array of doubles (/repo/opendis/DeadReckoning.py:80-84). -/
abbrev Mat := Fin 3 → Fin 3 → F64

/-- What depends on the machine: the C library's `cos`, `sin`, `tan` (/repo/opendis/DeadReckoning.py:57-62),
`dt ** 2` of a Python float, which calls the C library's `pow` and may raise
(/repo/opendis/DeadReckoning.py:232), and the matrix-vector product `R @ v`, which numpy may leave to a
BLAS library (/repo/opendis/DeadReckoning.py:286). -/
structure Platform where
  cos : F64 → F64
  sin : F64 → F64
  tan : F64 → F64
  square : F64 → Except PyErr F64
  matvec : Mat → Vec → Vec

/-- A function of `math` on an argument that may be infinite: `ValueError: math domain error`
(`math.cos`, `math.sin`, `math.tan`, /repo/opendis/DeadReckoning.py:57-62, :181-184). -/
def trig (f : F64 → F64) (x : F64) : Except PyErr F64 :=
  if x.expo = 2047 ∧ x.frac = 0 then .error .valueError else .ok (f x)

/-- numpy's elementwise `a + b`, /repo/opendis/DeadReckoning.py:140. -/
def vadd (a b : Vec) : Vec := fun i => F64.add (a i) (b i)

/-- numpy's `v * dt` with a scalar on the right, /repo/opendis/DeadReckoning.py:140. -/
def vmul (v : Vec) (dt : F64) : Vec := fun i => F64.mul (v i) dt

/-- The literal `0.5`, /repo/opendis/DeadReckoning.py:232. -/
def half : F64 := F64.mk 0 1022 0

/-- numpy's `0.5 * acc`, /repo/opendis/DeadReckoning.py:232. -/
def vhalf (a : Vec) : Vec := fun i => F64.mul half (a i)

/-- The double nearest to the literal `1e-6`, /repo/opendis/DeadReckoning.py:192. -/
def gimbal : F64 := BitVec.ofNat 64 0x3EB0C6F7A0B5ED8D

/-- `get_rotation_matrix`, /repo/opendis/DeadReckoning.py:44-84. -/
def get_rotation_matrix (P : Platform) (psi theta phi : F64) : Except PyErr Mat := do
  let c_psi ← trig P.cos psi
  let s_psi ← trig P.sin psi
  let c_theta ← trig P.cos theta
  let s_theta ← trig P.sin theta
  let c_phi ← trig P.cos phi
  let s_phi ← trig P.sin phi
  let r11 := F64.mul c_psi c_theta
  let r12 := F64.sub (F64.mul (F64.mul c_psi s_theta) s_phi) (F64.mul s_psi c_phi)
  let r13 := F64.add (F64.mul (F64.mul c_psi s_theta) c_phi) (F64.mul s_psi s_phi)
  let r21 := F64.mul s_psi c_theta
  let r22 := F64.add (F64.mul (F64.mul s_psi s_theta) s_phi) (F64.mul c_psi c_phi)
  let r23 := F64.sub (F64.mul (F64.mul s_psi s_theta) c_phi) (F64.mul c_psi s_phi)
  let r31 := F64.neg s_theta
  let r32 := F64.mul c_theta s_phi
  let r33 := F64.mul c_theta c_phi
  return fun i => match i with
    | 0 => fun j => match j with | 0 => r11 | 1 => r12 | 2 => r13
    | 1 => fun j => match j with | 0 => r21 | 1 => r22 | 2 => r23
    | 2 => fun j => match j with | 0 => r31 | 1 => r32 | 2 => r33

/-- `drm_static`, /repo/opendis/DeadReckoning.py:103-114. -/
def drm_static (position orientation : Vec) : Vec × Vec := (position, orientation)

/-- `drm_fpw`, /repo/opendis/DeadReckoning.py:116-141. -/
def drm_fpw (position velocity : Vec) (dt : F64) (orientation : Vec) : Vec × Vec :=
  (vadd position (vmul velocity dt), orientation)

/-- The Euler rates `(d_phi, d_theta, d_psi)`, /repo/opendis/DeadReckoning.py:178-199. In the first branch
`d_psi` is the integer 0, which behaves in `d_psi * dt` like the double 0. -/
def rates (P : Platform) (orientation angular_velocity : Vec) : Except PyErr (F64 × F64 × F64) := do
  let theta := orientation 1
  let phi := orientation 2
  let p := angular_velocity 0
  let q := angular_velocity 1
  let r := angular_velocity 2
  let c_phi ← trig P.cos phi
  let s_phi ← trig P.sin phi
  let c_theta ← trig P.cos theta
  let t_theta ← trig P.tan theta
  if F64.absLt c_theta gimbal then
    return (p, F64.sub (F64.mul q c_phi) (F64.mul r s_phi), F64.mk 0 0 0)
  else
    return (F64.add p (F64.mul (F64.add (F64.mul q s_phi) (F64.mul r c_phi)) t_theta),
      F64.sub (F64.mul q c_phi) (F64.mul r s_phi),
      F64.div (F64.add (F64.mul q s_phi) (F64.mul r c_phi)) c_theta)

/-- `drm_rpw`, /repo/opendis/DeadReckoning.py:143-207. -/
def drm_rpw (P : Platform) (position velocity : Vec) (dt : F64) (orientation angular_velocity : Vec) :
    Except PyErr (Vec × Vec) := do
  let new_position := vadd position (vmul velocity dt)
  let (d_phi, d_theta, d_psi) ← rates P orientation angular_velocity
  return (new_position, fun i => match i with
    | 0 => F64.add (orientation 0) (F64.mul d_psi dt)
    | 1 => F64.add (orientation 1) (F64.mul d_theta dt)
    | 2 => F64.add (orientation 2) (F64.mul d_phi dt))

/-- `drm_rvw`, /repo/opendis/DeadReckoning.py:209-237. -/
def drm_rvw (P : Platform) (position velocity acceleration : Vec) (dt : F64)
    (orientation angular_velocity : Vec) : Except PyErr (Vec × Vec) := do
  let dt2 ← P.square dt
  let new_position := vadd (vadd position (vmul velocity dt)) (vmul (vhalf acceleration) dt2)
  let (_, new_orientation) ← drm_rpw P position velocity dt orientation angular_velocity
  return (new_position, new_orientation)

/-- `drm_fvw`, /repo/opendis/DeadReckoning.py:239-262. -/
def drm_fvw (P : Platform) (position velocity acceleration : Vec) (dt : F64) (orientation : Vec) :
    Except PyErr (Vec × Vec) := do
  let dt2 ← P.square dt
  return (vadd (vadd position (vmul velocity dt)) (vmul (vhalf acceleration) dt2), orientation)

/-- `drm_fpb`, /repo/opendis/DeadReckoning.py:264-289. -/
def drm_fpb (P : Platform) (position velocity : Vec) (dt : F64) (orientation : Vec) :
    Except PyErr (Vec × Vec) := do
  let R_wb ← get_rotation_matrix P (orientation 0) (orientation 1) (orientation 2)
  let velocity_world := P.matvec R_wb velocity
  return (vadd position (vmul velocity_world dt), orientation)

/-- `np.zeros(3)`, /repo/opendis/DeadReckoning.py:317. -/
def zeros : Vec := fun _ => F64.mk 0 0 0

/-- `drm_rpb`, /repo/opendis/DeadReckoning.py:291-325. -/
def drm_rpb (P : Platform) (position velocity : Vec) (dt : F64) (orientation angular_velocity : Vec) :
    Except PyErr (Vec × Vec) := do
  let (_, new_orientation) ← drm_rpw P position zeros dt orientation angular_velocity
  let R_wb ← get_rotation_matrix P (orientation 0) (orientation 1) (orientation 2)
  let velocity_world := P.matvec R_wb velocity
  return (vadd position (vmul velocity_world dt), new_orientation)

/-- `drm_rvb`, /repo/opendis/DeadReckoning.py:327-361. -/
def drm_rvb (P : Platform) (position velocity acceleration : Vec) (dt : F64)
    (orientation angular_velocity : Vec) : Except PyErr (Vec × Vec) := do
  let (_, new_orientation) ← drm_rpw P position zeros dt orientation angular_velocity
  let R_wb ← get_rotation_matrix P (orientation 0) (orientation 1) (orientation 2)
  let dt2 ← P.square dt
  let displacement_body := vadd (vmul velocity dt) (vmul (vhalf acceleration) dt2)
  let displacement_world := P.matvec R_wb displacement_body
  return (vadd position displacement_world, new_orientation)

/-- `drm_fvb`, /repo/opendis/DeadReckoning.py:363-391. -/
def drm_fvb (P : Platform) (position velocity acceleration : Vec) (dt : F64) (orientation : Vec) :
    Except PyErr (Vec × Vec) := do
  let R_wb ← get_rotation_matrix P (orientation 0) (orientation 1) (orientation 2)
  let dt2 ← P.square dt
  let displacement_body := vadd (vmul velocity dt) (vmul (vhalf acceleration) dt2)
  let displacement_world := P.matvec R_wb displacement_body
  return (vadd position displacement_world, orientation)

end Dis.Dbl
