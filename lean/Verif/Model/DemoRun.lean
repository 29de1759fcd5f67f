import Verif.Model.Pdus3
import Verif.Model.DeadReckoning
import Verif.Model.RangeCoordinates

/-!
# The example program `examples/dis_dead_reckoning.py`

The whole program; `Model/Demo` has one round of its loop for any message. Its numbers; the text around them, their rounding for display and `time.time()` (line 74, not used) are not modelled.
-/

namespace Dis.Dbl

/-- The message made up at /repo/examples/dis_dead_reckoning.py:18-44. -/
def demoPdu : EntityStatePdu :=
  let pdu := EntityStatePdu.init
  { pdu with
    entityLocation := ⟨num 0, num 0, num 0⟩
    entityLinearVelocity := ⟨num 10, num 0, num 0⟩
    entityOrientation := ⟨num 0, num 0, num 0⟩
    deadReckoningParameters := { pdu.deadReckoningParameters with
      entityLinearAcceleration := ⟨num 1, num 0, num 0⟩
      entityAngularVelocity := ⟨num 0, num 0, num 0⟩ } }

/-- The five lists at /repo/examples/dis_dead_reckoning.py:51-63. -/
structure Motion where
  position : Vec
  velocity : Vec
  acceleration : Vec
  orientation : Vec
  angularVelocity : Vec

/-- /repo/examples/dis_dead_reckoning.py:51-63. -/
def motion (pdu : EntityStatePdu) : Motion where
  position := ![pdu.entityLocation.x, pdu.entityLocation.y, pdu.entityLocation.z]
  velocity := ![pdu.entityLinearVelocity.x, pdu.entityLinearVelocity.y, pdu.entityLinearVelocity.z]
  acceleration := ![pdu.deadReckoningParameters.entityLinearAcceleration.x,
    pdu.deadReckoningParameters.entityLinearAcceleration.y, pdu.deadReckoningParameters.entityLinearAcceleration.z]
  orientation := ![pdu.entityOrientation.psi, pdu.entityOrientation.theta, pdu.entityOrientation.phi]
  angularVelocity := ![pdu.deadReckoningParameters.entityAngularVelocity.x,
    pdu.deadReckoningParameters.entityAngularVelocity.y, pdu.deadReckoningParameters.entityAngularVelocity.z]

/-- What one round of the loop shows, /repo/examples/dis_dead_reckoning.py:93. -/
structure Frame where
  time : F64
  position : Vec

/-- `current_sim_time` at the start of round `n`, /repo/examples/dis_dead_reckoning.py:78, :95. -/
def clock (step : F64) : ℕ → F64
  | 0 => num 0
  | n + 1 => F64.add (clock step n) step

/-- The first `n` rounds of the loop, /repo/examples/dis_dead_reckoning.py:81-95, whatever the condition says. -/
def frames (P : Platform) (m : Motion) (step : F64) : ℕ → Except PyErr (List Frame)
  | 0 => .ok []
  | n + 1 => do
    let fs ← frames P m step n
    let (new_pos, _) ← drm_rvw P m.position m.velocity m.acceleration (clock step n) m.orientation m.angularVelocity
    return fs ++ [⟨clock step n, new_pos⟩]

/-- The loop ends before round `n`: the condition is false, or the round before raised
(/repo/examples/dis_dead_reckoning.py:81). -/
def ends (P : Platform) (m : Motion) (step duration : F64) (n : ℕ) : Prop :=
  F64.le (clock step n) duration = false ∨ ∃ e, frames P m step n = .error e

open Classical in
/-- `while current_sim_time <= simulation_duration`, /repo/examples/dis_dead_reckoning.py:78-95, with the step and the
duration left open; `none` if it runs forever. -/
noncomputable def simulate (P : Platform) (m : Motion) (step duration : F64) : Option (Except PyErr (List Frame)) :=
  if h : ∃ n, ends P m step duration n then some (frames P m step (Nat.find h)) else none

/-- The second part, /repo/examples/dis_dead_reckoning.py:121-141, for a start and a displacement: the start and the end
in geocentric coordinates and the end in geodetic ones. The sums are numpy doubles; their `** 2` in `ecef2lla` is taken to
be the one of Python floats. -/
noncomputable def moved (L : Libm) (start displacement : Vec) : Option (Except PyErr (Vec × Vec × Vec)) :=
  match lla2ecef L.toPlatform start with
  | .error e => some (.error e)
  | .ok start_ecef =>
    let final_ecef_real := vadd start_ecef displacement
    match ecef2lla L final_ecef_real defaultTolerance with
    | none => none
    | some (.error e) => some (.error e)
    | some (.ok final_lla) => some (.ok (start_ecef, final_ecef_real, final_lla))

/-- What `run_demo` shows: the rounds of the loop, then the start and end of the second part
(/repo/examples/dis_dead_reckoning.py:91, :127-143). -/
structure Demo where
  frames : List Frame
  start_ecef : Vec
  final_ecef_real : Vec
  final_lla : Vec

/-- `run_demo` from the message on, /repo/examples/dis_dead_reckoning.py:46-143, with step, duration and start left
open. `new_pos` after the loop is that of the last round; if there was none, it is not bound
(/repo/examples/dis_dead_reckoning.py:112). -/
noncomputable def demo (L : Libm) (pdu : EntityStatePdu) (step duration : F64) (start : Vec) :
    Option (Except PyErr Demo) :=
  match simulate L.toPlatform (motion pdu) step duration with
  | none => none
  | some (.error e) => some (.error e)
  | some (.ok fs) =>
    match fs.getLast? with
    | none => some (.error .nameError)
    | some f =>
      match moved L start f.position with
      | none => none
      | some (.error e) => some (.error e)
      | some (.ok (a, b, c)) => some (.ok ⟨fs, a, b, c⟩)

/-- `run_demo` as it is, /repo/examples/dis_dead_reckoning.py:16-145: steps of 0.5, a duration of 5.0, a start at
(36.6, -121.9, 100.0). -/
noncomputable def run_demo (L : Libm) : Option (Except PyErr Demo) :=
  demo L demoPdu half (num 5) ![0x40424ccccccccccd, 0xc05e79999999999a, num 100]

end Dis.Dbl
