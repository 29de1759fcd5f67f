import Mathlib.Analysis.SpecialFunctions.Trigonometric.Arctan
import Mathlib.LinearAlgebra.Matrix.Notation
import Mathlib.Data.Real.Basic

/-!
# `opendis/DeadReckoning.py`

Names follow the Python functions. Simplifications, for the whole file: floats are real numbers
(no rounding, no infinities or NaNs), decimal constants are the exact decimals, and vectors have
exactly three components, so numpy's broadcasting and shape errors do not arise. `_to_numpy`
(/repo/opendis/DeadReckoning.py:40-42) then only copies its argument and is left out.
-/

namespace Dis.Geo

open Matrix

/-- A three-component numpy vector (`Vector`, /repo/opendis/DeadReckoning.py:37-42). -/
abbrev Vec := Fin 3 → ℝ

/-- A 3x3 numpy array (/repo/opendis/DeadReckoning.py:80-84). -/
abbrev Mat := Matrix (Fin 3) (Fin 3) ℝ

/-- `get_rotation_matrix`, /repo/opendis/DeadReckoning.py:44-84. -/
noncomputable def get_rotation_matrix (psi theta phi : ℝ) : Mat :=
  let c_psi := Real.cos psi
  let s_psi := Real.sin psi
  let c_theta := Real.cos theta
  let s_theta := Real.sin theta
  let c_phi := Real.cos phi
  let s_phi := Real.sin phi
  let r11 := c_psi * c_theta
  let r12 := c_psi * s_theta * s_phi - s_psi * c_phi
  let r13 := c_psi * s_theta * c_phi + s_psi * s_phi
  let r21 := s_psi * c_theta
  let r22 := s_psi * s_theta * s_phi + c_psi * c_phi
  let r23 := s_psi * s_theta * c_phi - c_psi * s_phi
  let r31 := -s_theta
  let r32 := c_theta * s_phi
  let r33 := c_theta * c_phi
  !![r11, r12, r13;
     r21, r22, r23;
     r31, r32, r33]

/-- `get_angular_velocity_matrix`, /repo/opendis/DeadReckoning.py:86-101. -/
def get_angular_velocity_matrix (omega : Vec) : Mat :=
  let wx := omega 0
  let wy := omega 1
  let wz := omega 2
  !![0, -wz, wy;
     wz, 0, -wx;
     -wy, wx, 0]

/-- `drm_static`, /repo/opendis/DeadReckoning.py:103-114. -/
def drm_static (position orientation : Vec) : Vec × Vec := (position, orientation)

/-- `drm_fpw`, /repo/opendis/DeadReckoning.py:116-141. -/
def drm_fpw (position velocity : Vec) (dt : ℝ) (orientation : Vec) : Vec × Vec :=
  (position + dt • velocity, orientation)

/-- `drm_rpw`, /repo/opendis/DeadReckoning.py:143-207. -/
noncomputable def drm_rpw (position velocity : Vec) (dt : ℝ) (orientation angular_velocity : Vec) :
    Vec × Vec :=
  let new_position := position + dt • velocity
  let psi := orientation 0
  let theta := orientation 1
  let phi := orientation 2
  let p := angular_velocity 0
  let q := angular_velocity 1
  let r := angular_velocity 2
  let c_phi := Real.cos phi
  let s_phi := Real.sin phi
  let c_theta := Real.cos theta
  let t_theta := Real.tan theta
  let rates : ℝ × ℝ × ℝ :=
    if |c_theta| < 1e-6 then
      (p, q * c_phi - r * s_phi, 0)
    else
      (p + (q * s_phi + r * c_phi) * t_theta, q * c_phi - r * s_phi,
        (q * s_phi + r * c_phi) / c_theta)
  let d_phi := rates.1
  let d_theta := rates.2.1
  let d_psi := rates.2.2
  (new_position, ![psi + d_psi * dt, theta + d_theta * dt, phi + d_phi * dt])

/-- `drm_rvw`, /repo/opendis/DeadReckoning.py:209-237. -/
noncomputable def drm_rvw (position velocity acceleration : Vec) (dt : ℝ)
    (orientation angular_velocity : Vec) : Vec × Vec :=
  let new_position := position + dt • velocity + dt ^ 2 • ((0.5 : ℝ) • acceleration)
  let new_orientation := (drm_rpw position velocity dt orientation angular_velocity).2
  (new_position, new_orientation)

/-- `drm_fvw`, /repo/opendis/DeadReckoning.py:239-262. -/
noncomputable def drm_fvw (position velocity acceleration : Vec) (dt : ℝ) (orientation : Vec) :
    Vec × Vec :=
  (position + dt • velocity + dt ^ 2 • ((0.5 : ℝ) • acceleration), orientation)

/-- `drm_fpb`, /repo/opendis/DeadReckoning.py:264-289. -/
noncomputable def drm_fpb (position velocity : Vec) (dt : ℝ) (orientation : Vec) : Vec × Vec :=
  let R_wb := get_rotation_matrix (orientation 0) (orientation 1) (orientation 2)
  let velocity_world := R_wb *ᵥ velocity
  (position + dt • velocity_world, orientation)

/-- `drm_rpb`, /repo/opendis/DeadReckoning.py:291-325. -/
noncomputable def drm_rpb (position velocity : Vec) (dt : ℝ) (orientation angular_velocity : Vec) :
    Vec × Vec :=
  let new_orientation := (drm_rpw position 0 dt orientation angular_velocity).2
  let R_wb := get_rotation_matrix (orientation 0) (orientation 1) (orientation 2)
  let velocity_world := R_wb *ᵥ velocity
  (position + dt • velocity_world, new_orientation)

/-- `drm_rvb`, /repo/opendis/DeadReckoning.py:327-361. -/
noncomputable def drm_rvb (position velocity acceleration : Vec) (dt : ℝ)
    (orientation angular_velocity : Vec) : Vec × Vec :=
  let new_orientation := (drm_rpw position 0 dt orientation angular_velocity).2
  let R_wb := get_rotation_matrix (orientation 0) (orientation 1) (orientation 2)
  let displacement_body := dt • velocity + dt ^ 2 • ((0.5 : ℝ) • acceleration)
  let displacement_world := R_wb *ᵥ displacement_body
  (position + displacement_world, new_orientation)

/-- `drm_fvb`, /repo/opendis/DeadReckoning.py:363-391. -/
noncomputable def drm_fvb (position velocity acceleration : Vec) (dt : ℝ) (orientation : Vec) :
    Vec × Vec :=
  let R_wb := get_rotation_matrix (orientation 0) (orientation 1) (orientation 2)
  let displacement_body := dt • velocity + dt ^ 2 • ((0.5 : ℝ) • acceleration)
  let displacement_world := R_wb *ᵥ displacement_body
  (position + displacement_world, orientation)

end Dis.Geo
