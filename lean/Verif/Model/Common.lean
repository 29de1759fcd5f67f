import Verif.Py.Object

/-!
# Records of `opendis/record/common.py`

Generated by `tools/gen.py` from the Python source; each definition cites the lines it transliterates.
-/

set_option linter.unusedVariables false

namespace Dis

/-- Attributes of a `SimulationAddress` object, /repo/opendis/record/common.py:115-139; default values are those of an
object made by `SimulationAddress()`, /repo/opendis/record/common.py:122-128. -/
structure SimulationAddress where
  site : Int := 0
  application : Int := 0
  deriving DecidableEq

/-- Constructor `SimulationAddress(...)`, /repo/opendis/record/common.py:122-128. `x or T()` and `x or []` keep a given
value and replace `None` (absent) by a fresh one. -/
def SimulationAddress.init (site : Int := 0) (application : Int := 0) : SimulationAddress :=
  { site := site,
    application := application }

/-- `SimulationAddress.serialize`, /repo/opendis/record/common.py:133-135. -/
def SimulationAddress.serialize (self : SimulationAddress) : W Unit := do
  write_unsigned_short self.site
  write_unsigned_short self.application

/-- `SimulationAddress.parse`, /repo/opendis/record/common.py:137-139; returns the updated object. -/
def SimulationAddress.parse (self : SimulationAddress) : R SimulationAddress := do
  let site ← read_unsigned_short
  let application ← read_unsigned_short
  return { self with site := site, application := application }

/-- Attributes of a `EntityIdentifier` object, /repo/opendis/record/common.py:32-54; default values are those of an
object made by `EntityIdentifier()`, /repo/opendis/record/common.py:39-43. -/
structure EntityIdentifier where
  simulationAddress : SimulationAddress := SimulationAddress.init
  entityNumber : Int := 0
  deriving DecidableEq

/-- Constructor `EntityIdentifier(...)`, /repo/opendis/record/common.py:39-43. `x or T()` and `x or []` keep a given
value and replace `None` (absent) by a fresh one. -/
def EntityIdentifier.init (simulationAddress : Option SimulationAddress := none)
    (entityNumber : Int := 0) : EntityIdentifier :=
  { simulationAddress := simulationAddress.getD SimulationAddress.init,
    entityNumber := entityNumber }

/-- `EntityIdentifier.serialize`, /repo/opendis/record/common.py:48-50. -/
def EntityIdentifier.serialize (self : EntityIdentifier) : W Unit := do
  SimulationAddress.serialize self.simulationAddress
  write_uint16 self.entityNumber

/-- `EntityIdentifier.parse`, /repo/opendis/record/common.py:52-54; returns the updated object. -/
def EntityIdentifier.parse (self : EntityIdentifier) : R EntityIdentifier := do
  let simulationAddress ← SimulationAddress.parse self.simulationAddress
  let entityNumber ← read_uint16
  return { self with simulationAddress := simulationAddress, entityNumber := entityNumber }

/-- Attributes of a `EulerAngles` object, /repo/opendis/record/common.py:57-85; default values are those of an
object made by `EulerAngles()`, /repo/opendis/record/common.py:66-72. -/
structure EulerAngles where
  psi : F64 := 0x0000000000000000
  theta : F64 := 0x0000000000000000
  phi : F64 := 0x0000000000000000
  deriving DecidableEq

/-- Constructor `EulerAngles(...)`, /repo/opendis/record/common.py:66-72. `x or T()` and `x or []` keep a given
value and replace `None` (absent) by a fresh one. -/
def EulerAngles.init (psi : F64 := 0x0000000000000000) (theta : F64 := 0x0000000000000000)
    (phi : F64 := 0x0000000000000000) : EulerAngles :=
  { psi := psi,
    theta := theta,
    phi := phi }

/-- `EulerAngles.serialize`, /repo/opendis/record/common.py:77-80. -/
def EulerAngles.serialize (self : EulerAngles) : W Unit := do
  write_float32 self.psi
  write_float32 self.theta
  write_float32 self.phi

/-- `EulerAngles.parse`, /repo/opendis/record/common.py:82-85; returns the updated object. -/
def EulerAngles.parse (self : EulerAngles) : R EulerAngles := do
  let psi ← read_float32
  let theta ← read_float32
  let phi ← read_float32
  return { self with psi := psi, theta := theta, phi := phi }

/-- Attributes of a `EventIdentifier` object, /repo/opendis/record/common.py:88-112; default values are those of an
object made by `EventIdentifier()`, /repo/opendis/record/common.py:96-101. -/
structure EventIdentifier where
  simulationAddress : SimulationAddress := SimulationAddress.init
  eventNumber : Int := 0
  deriving DecidableEq

/-- Constructor `EventIdentifier(...)`, /repo/opendis/record/common.py:96-101. `x or T()` and `x or []` keep a given
value and replace `None` (absent) by a fresh one. -/
def EventIdentifier.init (simulationAddress : Option SimulationAddress := none)
    (eventNumber : Int := 0) : EventIdentifier :=
  { simulationAddress := simulationAddress.getD SimulationAddress.init,
    eventNumber := eventNumber }

/-- `EventIdentifier.serialize`, /repo/opendis/record/common.py:106-108. -/
def EventIdentifier.serialize (self : EventIdentifier) : W Unit := do
  SimulationAddress.serialize self.simulationAddress
  write_unsigned_short self.eventNumber

/-- `EventIdentifier.parse`, /repo/opendis/record/common.py:110-112; returns the updated object. -/
def EventIdentifier.parse (self : EventIdentifier) : R EventIdentifier := do
  let simulationAddress ← SimulationAddress.parse self.simulationAddress
  let eventNumber ← read_unsigned_short
  return { self with simulationAddress := simulationAddress, eventNumber := eventNumber }

/-- Attributes of a `Vector3Float` object, /repo/opendis/record/common.py:142-168; default values are those of an
object made by `Vector3Float()`, /repo/opendis/record/common.py:152-155. -/
structure Vector3Float where
  x : F64 := 0x0000000000000000
  y : F64 := 0x0000000000000000
  z : F64 := 0x0000000000000000
  deriving DecidableEq

/-- Constructor `Vector3Float(...)`, /repo/opendis/record/common.py:152-155. `x or T()` and `x or []` keep a given
value and replace `None` (absent) by a fresh one. -/
def Vector3Float.init (x : F64 := 0x0000000000000000) (y : F64 := 0x0000000000000000)
    (z : F64 := 0x0000000000000000) : Vector3Float :=
  { x := x,
    y := y,
    z := z }

/-- `Vector3Float.serialize`, /repo/opendis/record/common.py:160-163. -/
def Vector3Float.serialize (self : Vector3Float) : W Unit := do
  write_float self.x
  write_float self.y
  write_float self.z

/-- `Vector3Float.parse`, /repo/opendis/record/common.py:165-168; returns the updated object. -/
def Vector3Float.parse (self : Vector3Float) : R Vector3Float := do
  let x ← read_float
  let y ← read_float
  let z ← read_float
  return { self with x := x, y := y, z := z }

/-- Attributes of a `WorldCoordinates` object, /repo/opendis/record/common.py:171-196; default values are those of an
object made by `WorldCoordinates()`, /repo/opendis/record/common.py:180-183. -/
structure WorldCoordinates where
  x : F64 := 0x0000000000000000
  y : F64 := 0x0000000000000000
  z : F64 := 0x0000000000000000
  deriving DecidableEq

/-- Constructor `WorldCoordinates(...)`, /repo/opendis/record/common.py:180-183. `x or T()` and `x or []` keep a given
value and replace `None` (absent) by a fresh one. -/
def WorldCoordinates.init (x : F64 := 0x0000000000000000) (y : F64 := 0x0000000000000000)
    (z : F64 := 0x0000000000000000) : WorldCoordinates :=
  { x := x,
    y := y,
    z := z }

/-- `WorldCoordinates.serialize`, /repo/opendis/record/common.py:188-191. -/
def WorldCoordinates.serialize (self : WorldCoordinates) : W Unit := do
  write_float64 self.x
  write_float64 self.y
  write_float64 self.z

/-- `WorldCoordinates.parse`, /repo/opendis/record/common.py:193-196; returns the updated object. -/
def WorldCoordinates.parse (self : WorldCoordinates) : R WorldCoordinates := do
  let x ← read_float64
  let y ← read_float64
  let z ← read_float64
  return { self with x := x, y := y, z := z }

end Dis
