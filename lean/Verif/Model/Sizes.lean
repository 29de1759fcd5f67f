import Verif.Model.Common

/-!
# `marshalledSize` of the records of `opendis/record/common.py`

Hand-written transliteration; the other `marshalledSize` methods stand beside their classes in
`Model/Bitfield.lean`, `Model/Radio.lean`, `Model/Warfare.lean` and `Model/Special.lean`.
-/

namespace Dis

/-- `SimulationAddress.marshalledSize`, /repo/opendis/record/common.py:130-131. -/
def SimulationAddress.marshalledSize (_self : SimulationAddress) : Int := 4

/-- `EntityIdentifier.marshalledSize`, /repo/opendis/record/common.py:45-46. -/
def EntityIdentifier.marshalledSize (self : EntityIdentifier) : Int :=
  self.simulationAddress.marshalledSize + 2

/-- `EulerAngles.marshalledSize`, /repo/opendis/record/common.py:74-75. -/
def EulerAngles.marshalledSize (_self : EulerAngles) : Int := 12

/-- `EventIdentifier.marshalledSize`, /repo/opendis/record/common.py:103-104. -/
def EventIdentifier.marshalledSize (self : EventIdentifier) : Int :=
  self.simulationAddress.marshalledSize + 2

/-- `Vector3Float.marshalledSize`, /repo/opendis/record/common.py:157-158. -/
def Vector3Float.marshalledSize (_self : Vector3Float) : Int := 12

/-- `WorldCoordinates.marshalledSize`, /repo/opendis/record/common.py:185-186. -/
def WorldCoordinates.marshalledSize (_self : WorldCoordinates) : Int := 24

end Dis
