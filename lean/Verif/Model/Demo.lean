import Verif.Model.DeadReckoning
import Verif.Model.Pdus3

/-!
# The example program `examples/dis_dead_reckoning.py`

One round of its loop, for any message instead of the one the program makes up. Printing, the fixed
numbers and the conversion to geographic coordinates at the end are left out.
-/

namespace Dis

/-- A list of three numbers, turned into a vector by `_to_numpy` (/repo/examples/dis_dead_reckoning.py:50,
/repo/opendis/DeadReckoning.py:40-42). -/
def vec3 (x y z : F64) : Dbl.Vec := fun i => match i with | 0 => x | 1 => y | 2 => z

/-- The extrapolated position and orientation of the entity of a message, `current_sim_time` seconds after
its state was valid: /repo/examples/dis_dead_reckoning.py:50-63, :83-90. -/
def extrapolate (P : Dbl.Platform) (pdu : EntityStatePdu) (current_sim_time : F64) :
    Except PyErr (Dbl.Vec × Dbl.Vec) :=
  let initial_pos := vec3 pdu.entityLocation.x pdu.entityLocation.y pdu.entityLocation.z
  let velocity := vec3 pdu.entityLinearVelocity.x pdu.entityLinearVelocity.y pdu.entityLinearVelocity.z
  let acceleration := vec3 pdu.deadReckoningParameters.entityLinearAcceleration.x
    pdu.deadReckoningParameters.entityLinearAcceleration.y
    pdu.deadReckoningParameters.entityLinearAcceleration.z
  let orientation := vec3 pdu.entityOrientation.psi pdu.entityOrientation.theta pdu.entityOrientation.phi
  let angular_velocity := vec3 pdu.deadReckoningParameters.entityAngularVelocity.x
    pdu.deadReckoningParameters.entityAngularVelocity.y
    pdu.deadReckoningParameters.entityAngularVelocity.z
  Dbl.drm_rvw P initial_pos velocity acceleration current_sim_time orientation angular_velocity

end Dis
