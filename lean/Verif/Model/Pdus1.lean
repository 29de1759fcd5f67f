import Verif.Model.Records5

/-!
# PDUs of `opendis/dis7.py`, part 1

Generated by `tools/gen.py` from the Python source; each definition cites the lines it transliterates.
-/

set_option linter.unusedVariables false

namespace Dis

/-- Attributes of a `PduSuperclass` object, /repo/opendis/dis7.py:3424-3478; default values are those of an
object made by `PduSuperclass()`, /repo/opendis/dis7.py:3431-3460. -/
structure PduSuperclass where
  protocolVersion : Int := 7
  exerciseID : Int := 0
  pduType : Int := 0
  protocolFamily : Int := 0
  timestamp : Int := 0
  length : Int := 0
  deriving DecidableEq

/-- `PduSuperclass.serialize`, /repo/opendis/dis7.py:3462-3469. -/
def PduSuperclass.serialize (self : PduSuperclass) : W Unit := do
  write_unsigned_byte self.protocolVersion
  write_unsigned_byte self.exerciseID
  write_unsigned_byte self.pduType
  write_unsigned_byte self.protocolFamily
  write_unsigned_int self.timestamp
  write_unsigned_short (self.length : Int)

/-- `PduSuperclass.parse`, /repo/opendis/dis7.py:3471-3478; returns the updated object. -/
def PduSuperclass.parse (self : PduSuperclass) : R PduSuperclass := do
  let protocolVersion ← read_unsigned_byte
  let exerciseID ← read_unsigned_byte
  let pduType ← read_unsigned_byte
  let protocolFamily ← read_unsigned_byte
  let timestamp ← read_unsigned_int
  let length ← read_unsigned_short
  return { self with
    protocolVersion := protocolVersion,
    exerciseID := exerciseID,
    pduType := pduType,
    protocolFamily := protocolFamily,
    timestamp := timestamp,
    length := length }

/-- Attributes of a `LiveEntityPdu` object, /repo/opendis/dis7.py:3671-3695; default values are those of an
object made by `LiveEntityPdu()`, /repo/opendis/dis7.py:3678-3683. -/
structure LiveEntityPdu extends PduSuperclass where
  subprotocolNumber : Int := 0
  padding : Int := 0
  deriving DecidableEq

/-- `LiveEntityPdu.serialize`, /repo/opendis/dis7.py:3685-3689. -/
def LiveEntityPdu.serialize (self : LiveEntityPdu) : W Unit := do
  PduSuperclass.serialize self.toPduSuperclass
  write_unsigned_short self.subprotocolNumber
  write_unsigned_byte self.padding

/-- `LiveEntityPdu.parse`, /repo/opendis/dis7.py:3691-3695; returns the updated object. -/
def LiveEntityPdu.parse (self : LiveEntityPdu) : R LiveEntityPdu := do
  let base ← PduSuperclass.parse self.toPduSuperclass
  let subprotocolNumber ← read_unsigned_short
  let padding ← read_unsigned_byte
  return { self with
    toPduSuperclass := base,
    subprotocolNumber := subprotocolNumber,
    padding := padding }

/-- Attributes of a `Pdu` object, /repo/opendis/dis7.py:3698-3718; default values are those of an
object made by `Pdu()`, /repo/opendis/dis7.py:3701-3706. -/
structure Pdu extends PduSuperclass where
  pduStatus : Int := 0
  padding : Int := 0
  deriving DecidableEq

/-- `Pdu.serialize`, /repo/opendis/dis7.py:3708-3712. -/
def Pdu.serialize (self : Pdu) : W Unit := do
  PduSuperclass.serialize self.toPduSuperclass
  write_unsigned_byte self.pduStatus
  write_unsigned_byte self.padding

/-- `Pdu.parse`, /repo/opendis/dis7.py:3714-3718; returns the updated object. -/
def Pdu.parse (self : Pdu) : R Pdu := do
  let base ← PduSuperclass.parse self.toPduSuperclass
  let pduStatus ← read_unsigned_byte
  let padding ← read_unsigned_byte
  return { self with toPduSuperclass := base, pduStatus := pduStatus, padding := padding }

/-- Attributes of a `EntityInformationFamilyPdu` object, /repo/opendis/dis7.py:3721-3738; default values are those of an
object made by `EntityInformationFamilyPdu()`, /repo/opendis/dis7.py:3729-3730. -/
structure EntityInformationFamilyPdu extends Pdu where
  protocolFamily := 1
  deriving DecidableEq

/-- `EntityInformationFamilyPdu.serialize`, /repo/opendis/dis7.py:3732-3734. -/
def EntityInformationFamilyPdu.serialize (self : EntityInformationFamilyPdu) : W Unit := do
  Pdu.serialize self.toPdu

/-- `EntityInformationFamilyPdu.parse`, /repo/opendis/dis7.py:3736-3738; returns the updated object. -/
def EntityInformationFamilyPdu.parse (self : EntityInformationFamilyPdu) : R EntityInformationFamilyPdu := do
  let base ← Pdu.parse self.toPdu
  return { self with toPdu := base }

/-- Attributes of a `LogisticsFamilyPdu` object, /repo/opendis/dis7.py:3741-3757; default values are those of an
object made by `LogisticsFamilyPdu()`, /repo/opendis/dis7.py:3748-3749. -/
structure LogisticsFamilyPdu extends Pdu where
  protocolFamily := 3
  deriving DecidableEq

/-- `LogisticsFamilyPdu.serialize`, /repo/opendis/dis7.py:3751-3753. -/
def LogisticsFamilyPdu.serialize (self : LogisticsFamilyPdu) : W Unit := do
  Pdu.serialize self.toPdu

/-- `LogisticsFamilyPdu.parse`, /repo/opendis/dis7.py:3755-3757; returns the updated object. -/
def LogisticsFamilyPdu.parse (self : LogisticsFamilyPdu) : R LogisticsFamilyPdu := do
  let base ← Pdu.parse self.toPdu
  return { self with toPdu := base }

/-- Attributes of a `EntityStateUpdatePdu` object, /repo/opendis/dis7.py:3760-3820; default values are those of an
object made by `EntityStateUpdatePdu()`, /repo/opendis/dis7.py:3768-3788. -/
structure EntityStateUpdatePdu extends EntityInformationFamilyPdu where
  entityID : EntityIdentifier := EntityIdentifier.init
  padding1 : Int := 0
  entityLinearVelocity : Vector3Float := Vector3Float.init
  entityLocation : WorldCoordinates := WorldCoordinates.init
  entityOrientation : EulerAngles := EulerAngles.init
  entityAppearance : Int := 0
  variableParameters : List VariableParameter := []
  pduType := 67
  deriving DecidableEq

/-- Constructor `EntityStateUpdatePdu(...)`, /repo/opendis/dis7.py:3768-3788. `x or T()` and `x or []` keep a given
value and replace `None` (absent) by a fresh one. -/
def EntityStateUpdatePdu.init (entityID : Option EntityIdentifier := none)
    (entityLinearVelocity : Option Vector3Float := none)
    (entityLocation : Option WorldCoordinates := none)
    (entityOrientation : Option EulerAngles := none) (entityAppearance : Int := 0)
    (variableParameters : List VariableParameter := []) : EntityStateUpdatePdu :=
  { entityID := entityID.getD EntityIdentifier.init,
    padding1 := 0,
    entityLinearVelocity := entityLinearVelocity.getD Vector3Float.init,
    entityLocation := entityLocation.getD WorldCoordinates.init,
    entityOrientation := entityOrientation.getD EulerAngles.init,
    entityAppearance := entityAppearance,
    variableParameters := variableParameters }

/-- `EntityStateUpdatePdu.serialize`, /repo/opendis/dis7.py:3794-3805. -/
def EntityStateUpdatePdu.serialize (self : EntityStateUpdatePdu) : W Unit := do
  EntityInformationFamilyPdu.serialize self.toEntityInformationFamilyPdu
  EntityIdentifier.serialize self.entityID
  write_byte self.padding1
  write_unsigned_byte (self.variableParameters.length : Int)
  Vector3Float.serialize self.entityLinearVelocity
  WorldCoordinates.serialize self.entityLocation
  EulerAngles.serialize self.entityOrientation
  write_unsigned_int self.entityAppearance
  W.forEach self.variableParameters VariableParameter.serialize

/-- `EntityStateUpdatePdu.parse`, /repo/opendis/dis7.py:3807-3820; returns the updated object. -/
def EntityStateUpdatePdu.parse (self : EntityStateUpdatePdu) : R EntityStateUpdatePdu := do
  let base ← EntityInformationFamilyPdu.parse self.toEntityInformationFamilyPdu
  let entityID ← EntityIdentifier.parse self.entityID
  let padding1 ← read_byte
  let numberOfVariableParameters ← read_unsigned_byte
  let entityLinearVelocity ← Vector3Float.parse self.entityLinearVelocity
  let entityLocation ← WorldCoordinates.parse self.entityLocation
  let entityOrientation ← EulerAngles.parse self.entityOrientation
  let entityAppearance ← read_unsigned_int
  let variableParameters ← R.times numberOfVariableParameters.toNat (VariableParameter.parse VariableParameter.init)
  return { self with
    toEntityInformationFamilyPdu := base,
    entityID := entityID,
    padding1 := padding1,
    entityLinearVelocity := entityLinearVelocity,
    entityLocation := entityLocation,
    entityOrientation := entityOrientation,
    entityAppearance := entityAppearance,
    variableParameters := self.variableParameters ++ variableParameters }

/-- Attributes of a `ServiceRequestPdu` object, /repo/opendis/dis7.py:3823-3872; default values are those of an
object made by `ServiceRequestPdu()`, /repo/opendis/dis7.py:3831-3844. -/
structure ServiceRequestPdu extends LogisticsFamilyPdu where
  requestingEntityID : EntityIdentifier := EntityIdentifier.init
  servicingEntityID : EntityIdentifier := EntityIdentifier.init
  serviceTypeRequested : Int := 0
  serviceRequestPadding : Int := 0
  supplies : List SupplyQuantity := []
  pduType := 5
  deriving DecidableEq

/-- Constructor `ServiceRequestPdu(...)`, /repo/opendis/dis7.py:3831-3844. `x or T()` and `x or []` keep a given
value and replace `None` (absent) by a fresh one. -/
def ServiceRequestPdu.init (requestingEntityID : Option EntityIdentifier := none)
    (servicingEntityID : Option EntityIdentifier := none) (serviceTypeRequested : Int := 0)
    (supplies : List SupplyQuantity := []) : ServiceRequestPdu :=
  { requestingEntityID := requestingEntityID.getD EntityIdentifier.init,
    servicingEntityID := servicingEntityID.getD EntityIdentifier.init,
    serviceTypeRequested := serviceTypeRequested,
    serviceRequestPadding := 0,
    supplies := supplies }

/-- `ServiceRequestPdu.serialize`, /repo/opendis/dis7.py:3850-3859. -/
def ServiceRequestPdu.serialize (self : ServiceRequestPdu) : W Unit := do
  LogisticsFamilyPdu.serialize self.toLogisticsFamilyPdu
  EntityIdentifier.serialize self.requestingEntityID
  EntityIdentifier.serialize self.servicingEntityID
  write_unsigned_byte self.serviceTypeRequested
  write_unsigned_byte (self.supplies.length : Int)
  write_short self.serviceRequestPadding
  W.forEach self.supplies SupplyQuantity.serialize

/-- `ServiceRequestPdu.parse`, /repo/opendis/dis7.py:3861-3872; returns the updated object. -/
def ServiceRequestPdu.parse (self : ServiceRequestPdu) : R ServiceRequestPdu := do
  let base ← LogisticsFamilyPdu.parse self.toLogisticsFamilyPdu
  let requestingEntityID ← EntityIdentifier.parse self.requestingEntityID
  let servicingEntityID ← EntityIdentifier.parse self.servicingEntityID
  let serviceTypeRequested ← read_unsigned_byte
  let numberOfSupplyTypes ← read_unsigned_byte
  let serviceRequestPadding ← read_short
  let supplies ← R.times numberOfSupplyTypes.toNat (SupplyQuantity.parse SupplyQuantity.init)
  return { self with
    toLogisticsFamilyPdu := base,
    requestingEntityID := requestingEntityID,
    servicingEntityID := servicingEntityID,
    serviceTypeRequested := serviceTypeRequested,
    serviceRequestPadding := serviceRequestPadding,
    supplies := self.supplies ++ supplies }

/-- Attributes of a `RepairCompletePdu` object, /repo/opendis/dis7.py:3875-3910; default values are those of an
object made by `RepairCompletePdu()`, /repo/opendis/dis7.py:3882-3894. -/
structure RepairCompletePdu extends LogisticsFamilyPdu where
  receivingEntityID : EntityIdentifier := EntityIdentifier.init
  repairingEntityID : EntityIdentifier := EntityIdentifier.init
  repair : Int := 0
  padding4 : Int := 0
  pduType := 9
  deriving DecidableEq

/-- Constructor `RepairCompletePdu(...)`, /repo/opendis/dis7.py:3882-3894. `x or T()` and `x or []` keep a given
value and replace `None` (absent) by a fresh one. -/
def RepairCompletePdu.init (receivingEntityID : Option EntityIdentifier := none)
    (repairingEntityID : Option EntityIdentifier := none) (repair : Int := 0) : RepairCompletePdu :=
  { receivingEntityID := receivingEntityID.getD EntityIdentifier.init,
    repairingEntityID := repairingEntityID.getD EntityIdentifier.init,
    repair := repair,
    padding4 := 0 }

/-- `RepairCompletePdu.serialize`, /repo/opendis/dis7.py:3896-3902. -/
def RepairCompletePdu.serialize (self : RepairCompletePdu) : W Unit := do
  LogisticsFamilyPdu.serialize self.toLogisticsFamilyPdu
  EntityIdentifier.serialize self.receivingEntityID
  EntityIdentifier.serialize self.repairingEntityID
  write_unsigned_short self.repair
  write_short self.padding4

/-- `RepairCompletePdu.parse`, /repo/opendis/dis7.py:3904-3910; returns the updated object. -/
def RepairCompletePdu.parse (self : RepairCompletePdu) : R RepairCompletePdu := do
  let base ← LogisticsFamilyPdu.parse self.toLogisticsFamilyPdu
  let receivingEntityID ← EntityIdentifier.parse self.receivingEntityID
  let repairingEntityID ← EntityIdentifier.parse self.repairingEntityID
  let repair ← read_unsigned_short
  let padding4 ← read_short
  return { self with
    toLogisticsFamilyPdu := base,
    receivingEntityID := receivingEntityID,
    repairingEntityID := repairingEntityID,
    repair := repair,
    padding4 := padding4 }

/-- Attributes of a `SyntheticEnvironmentFamilyPdu` object, /repo/opendis/dis7.py:3913-3929; default values are those of an
object made by `SyntheticEnvironmentFamilyPdu()`, /repo/opendis/dis7.py:3920-3921. -/
structure SyntheticEnvironmentFamilyPdu extends Pdu where
  protocolFamily := 9
  deriving DecidableEq

/-- `SyntheticEnvironmentFamilyPdu.serialize`, /repo/opendis/dis7.py:3923-3925. -/
def SyntheticEnvironmentFamilyPdu.serialize (self : SyntheticEnvironmentFamilyPdu) : W Unit := do
  Pdu.serialize self.toPdu

/-- `SyntheticEnvironmentFamilyPdu.parse`, /repo/opendis/dis7.py:3927-3929; returns the updated object. -/
def SyntheticEnvironmentFamilyPdu.parse (self : SyntheticEnvironmentFamilyPdu) : R SyntheticEnvironmentFamilyPdu := do
  let base ← Pdu.parse self.toPdu
  return { self with toPdu := base }

/-- Attributes of a `CollisionPdu` object, /repo/opendis/dis7.py:3932-3987; default values are those of an
object made by `CollisionPdu()`, /repo/opendis/dis7.py:3940-3963. -/
structure CollisionPdu extends EntityInformationFamilyPdu where
  issuingEntityID : EntityIdentifier := EntityIdentifier.init
  collidingEntityID : EntityIdentifier := EntityIdentifier.init
  eventID : EventIdentifier := EventIdentifier.init
  collisionType : Int := 0
  pad : Int := 0
  velocity : Vector3Float := Vector3Float.init
  mass : F64 := 0x0000000000000000
  location : Vector3Float := Vector3Float.init
  pduType := 4
  deriving DecidableEq

/-- Constructor `CollisionPdu(...)`, /repo/opendis/dis7.py:3940-3963. `x or T()` and `x or []` keep a given
value and replace `None` (absent) by a fresh one. -/
def CollisionPdu.init (issuingEntityID : Option EntityIdentifier := none)
    (collidingEntityID : Option EntityIdentifier := none)
    (eventID : Option EventIdentifier := none) (collisionType : Int := 0)
    (velocity : Option Vector3Float := none) (mass : F64 := 0x0000000000000000)
    (location : Option Vector3Float := none) : CollisionPdu :=
  { issuingEntityID := issuingEntityID.getD EntityIdentifier.init,
    collidingEntityID := collidingEntityID.getD EntityIdentifier.init,
    eventID := eventID.getD EventIdentifier.init,
    collisionType := collisionType,
    pad := 0,
    velocity := velocity.getD Vector3Float.init,
    mass := mass,
    location := location.getD Vector3Float.init }

/-- `CollisionPdu.serialize`, /repo/opendis/dis7.py:3965-3975. -/
def CollisionPdu.serialize (self : CollisionPdu) : W Unit := do
  EntityInformationFamilyPdu.serialize self.toEntityInformationFamilyPdu
  EntityIdentifier.serialize self.issuingEntityID
  EntityIdentifier.serialize self.collidingEntityID
  EventIdentifier.serialize self.eventID
  write_unsigned_byte self.collisionType
  write_byte self.pad
  Vector3Float.serialize self.velocity
  write_float self.mass
  Vector3Float.serialize self.location

/-- `CollisionPdu.parse`, /repo/opendis/dis7.py:3977-3987; returns the updated object. -/
def CollisionPdu.parse (self : CollisionPdu) : R CollisionPdu := do
  let base ← EntityInformationFamilyPdu.parse self.toEntityInformationFamilyPdu
  let issuingEntityID ← EntityIdentifier.parse self.issuingEntityID
  let collidingEntityID ← EntityIdentifier.parse self.collidingEntityID
  let eventID ← EventIdentifier.parse self.eventID
  let collisionType ← read_unsigned_byte
  let pad ← read_byte
  let velocity ← Vector3Float.parse self.velocity
  let mass ← read_float
  let location ← Vector3Float.parse self.location
  return { self with
    toEntityInformationFamilyPdu := base,
    issuingEntityID := issuingEntityID,
    collidingEntityID := collidingEntityID,
    eventID := eventID,
    collisionType := collisionType,
    pad := pad,
    velocity := velocity,
    mass := mass,
    location := location }

/-- Attributes of a `RepairResponsePdu` object, /repo/opendis/dis7.py:3990-4027; default values are those of an
object made by `RepairResponsePdu()`, /repo/opendis/dis7.py:3997-4009. -/
structure RepairResponsePdu extends LogisticsFamilyPdu where
  receivingEntityID : EntityIdentifier := EntityIdentifier.init
  repairingEntityID : EntityIdentifier := EntityIdentifier.init
  repairResult : Int := 0
  padding1 : Int := 0
  padding2 : Int := 0
  pduType := 10
  deriving DecidableEq

/-- Constructor `RepairResponsePdu(...)`, /repo/opendis/dis7.py:3997-4009. `x or T()` and `x or []` keep a given
value and replace `None` (absent) by a fresh one. -/
def RepairResponsePdu.init (receivingEntityID : Option EntityIdentifier := none)
    (repairingEntityID : Option EntityIdentifier := none) (repairResult : Int := 0) : RepairResponsePdu :=
  { receivingEntityID := receivingEntityID.getD EntityIdentifier.init,
    repairingEntityID := repairingEntityID.getD EntityIdentifier.init,
    repairResult := repairResult,
    padding1 := 0,
    padding2 := 0 }

/-- `RepairResponsePdu.serialize`, /repo/opendis/dis7.py:4011-4018. -/
def RepairResponsePdu.serialize (self : RepairResponsePdu) : W Unit := do
  LogisticsFamilyPdu.serialize self.toLogisticsFamilyPdu
  EntityIdentifier.serialize self.receivingEntityID
  EntityIdentifier.serialize self.repairingEntityID
  write_unsigned_byte self.repairResult
  write_short self.padding1
  write_byte self.padding2

/-- `RepairResponsePdu.parse`, /repo/opendis/dis7.py:4020-4027; returns the updated object. -/
def RepairResponsePdu.parse (self : RepairResponsePdu) : R RepairResponsePdu := do
  let base ← LogisticsFamilyPdu.parse self.toLogisticsFamilyPdu
  let receivingEntityID ← EntityIdentifier.parse self.receivingEntityID
  let repairingEntityID ← EntityIdentifier.parse self.repairingEntityID
  let repairResult ← read_unsigned_byte
  let padding1 ← read_short
  let padding2 ← read_byte
  return { self with
    toLogisticsFamilyPdu := base,
    receivingEntityID := receivingEntityID,
    repairingEntityID := repairingEntityID,
    repairResult := repairResult,
    padding1 := padding1,
    padding2 := padding2 }

/-- Attributes of a `SimulationManagementFamilyPdu` object, /repo/opendis/dis7.py:4030-4056; default values are those of an
object made by `SimulationManagementFamilyPdu()`, /repo/opendis/dis7.py:4037-4044. -/
structure SimulationManagementFamilyPdu extends Pdu where
  originatingEntityID : EntityIdentifier := EntityIdentifier.init
  receivingEntityID : EntityIdentifier := EntityIdentifier.init
  protocolFamily := 5
  deriving DecidableEq

/-- `SimulationManagementFamilyPdu.serialize`, /repo/opendis/dis7.py:4046-4050. -/
def SimulationManagementFamilyPdu.serialize (self : SimulationManagementFamilyPdu) : W Unit := do
  Pdu.serialize self.toPdu
  EntityIdentifier.serialize self.originatingEntityID
  EntityIdentifier.serialize self.receivingEntityID

/-- `SimulationManagementFamilyPdu.parse`, /repo/opendis/dis7.py:4052-4056; returns the updated object. -/
def SimulationManagementFamilyPdu.parse (self : SimulationManagementFamilyPdu) : R SimulationManagementFamilyPdu := do
  let base ← Pdu.parse self.toPdu
  let originatingEntityID ← EntityIdentifier.parse self.originatingEntityID
  let receivingEntityID ← EntityIdentifier.parse self.receivingEntityID
  return { self with
    toPdu := base,
    originatingEntityID := originatingEntityID,
    receivingEntityID := receivingEntityID }

/-- Attributes of a `DataQueryPdu` object, /repo/opendis/dis7.py:4059-4107; default values are those of an
object made by `DataQueryPdu()`, /repo/opendis/dis7.py:4066-4077. -/
structure DataQueryPdu extends SimulationManagementFamilyPdu where
  requestID : Int := 0
  timeInterval : Int := 0
  _dataQuery : DataQueryDatumSpecification := DataQueryDatumSpecification.init
  pduType := 18
  deriving DecidableEq

/-- Constructor `DataQueryPdu(...)`, /repo/opendis/dis7.py:4066-4077. `x or T()` and `x or []` keep a given
value and replace `None` (absent) by a fresh one. -/
def DataQueryPdu.init (_requestID : Int := 0) (_timeInterval : Int := 0)
    (fixedDatumIDs : List Int := []) (variableDatumIDs : List Int := []) : DataQueryPdu :=
  { requestID := 0,
    timeInterval := 0,
    _dataQuery := DataQueryDatumSpecification.init fixedDatumIDs variableDatumIDs }

/-- `DataQueryPdu.serialize`, /repo/opendis/dis7.py:4095-4100. -/
def DataQueryPdu.serialize (self : DataQueryPdu) : W Unit := do
  SimulationManagementFamilyPdu.serialize self.toSimulationManagementFamilyPdu
  write_unsigned_int self.requestID
  write_unsigned_int self.timeInterval
  DataQueryDatumSpecification.serialize self._dataQuery

/-- `DataQueryPdu.parse`, /repo/opendis/dis7.py:4102-4107; returns the updated object. -/
def DataQueryPdu.parse (self : DataQueryPdu) : R DataQueryPdu := do
  let base ← SimulationManagementFamilyPdu.parse self.toSimulationManagementFamilyPdu
  let requestID ← read_unsigned_int
  let timeInterval ← read_unsigned_int
  let _dataQuery ← DataQueryDatumSpecification.parse self._dataQuery
  return { self with
    toSimulationManagementFamilyPdu := base,
    requestID := requestID,
    timeInterval := timeInterval,
    _dataQuery := _dataQuery }

end Dis
