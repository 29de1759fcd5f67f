import Verif.Model.Common
import Verif.Spec.Layout

/-!
# Wire layouts of the classes of `Verif.Model.Common`

Generated by `tools/genlayout.py`.
-/

set_option linter.unusedVariables false

namespace Dis

/-- Layout of `SimulationAddress` on the wire (/repo/opendis/record/common.py:133-135). -/
def SimulationAddress.wire (o : SimulationAddress) : List Slot :=
  [[.u16 o.site],
   [.u16 o.application]].flatten

/-- Layout of `EntityIdentifier` on the wire (/repo/opendis/record/common.py:48-50). -/
def EntityIdentifier.wire (o : EntityIdentifier) : List Slot :=
  [SimulationAddress.wire o.simulationAddress,
   [.u16 o.entityNumber]].flatten

/-- Layout of `EulerAngles` on the wire (/repo/opendis/record/common.py:77-80). -/
def EulerAngles.wire (o : EulerAngles) : List Slot :=
  [[.f32 o.psi],
   [.f32 o.theta],
   [.f32 o.phi]].flatten

/-- Layout of `EventIdentifier` on the wire (/repo/opendis/record/common.py:106-108). -/
def EventIdentifier.wire (o : EventIdentifier) : List Slot :=
  [SimulationAddress.wire o.simulationAddress,
   [.u16 o.eventNumber]].flatten

/-- Layout of `Vector3Float` on the wire (/repo/opendis/record/common.py:160-163). -/
def Vector3Float.wire (o : Vector3Float) : List Slot :=
  [[.f32 o.x],
   [.f32 o.y],
   [.f32 o.z]].flatten

/-- Layout of `WorldCoordinates` on the wire (/repo/opendis/record/common.py:188-191). -/
def WorldCoordinates.wire (o : WorldCoordinates) : List Slot :=
  [[.f64 o.x],
   [.f64 o.y],
   [.f64 o.z]].flatten

end Dis
