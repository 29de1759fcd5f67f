import Verif.Model.Pdus1

/-!
# PDUs of `opendis/dis7.py`, part 2

Generated by `tools/gen.py` from the Python source; each definition cites the lines it transliterates.
-/

set_option linter.unusedVariables false

namespace Dis

/-- Attributes of a `LinearObjectStatePdu` object, /repo/opendis/dis7.py:4110-4175; default values are those of an
object made by `LinearObjectStatePdu()`, /repo/opendis/dis7.py:4119-4141. -/
structure LinearObjectStatePdu extends SyntheticEnvironmentFamilyPdu where
  objectID : EntityIdentifier := EntityIdentifier.init
  referencedObjectID : EntityIdentifier := EntityIdentifier.init
  updateNumber : Int := 0
  forceID : Int := 0
  requesterID : SimulationAddress := SimulationAddress.init
  receivingID : SimulationAddress := SimulationAddress.init
  objectType : ObjectType := ObjectType.init
  linearSegmentParameters : List LinearSegmentParameter := []
  pduType := 44
  deriving DecidableEq

/-- `LinearObjectStatePdu(...)` raises whatever the arguments, /repo/opendis/dis7.py:4119-4141. -/
def LinearObjectStatePdu.init : Except PyErr LinearObjectStatePdu := .error .nameError

/-- `LinearObjectStatePdu.serialize`, /repo/opendis/dis7.py:4147-4159. -/
def LinearObjectStatePdu.serialize (self : LinearObjectStatePdu) : W Unit := do
  SyntheticEnvironmentFamilyPdu.serialize self.toSyntheticEnvironmentFamilyPdu
  EntityIdentifier.serialize self.objectID
  EntityIdentifier.serialize self.referencedObjectID
  write_unsigned_short self.updateNumber
  write_unsigned_byte self.forceID
  write_unsigned_byte (self.linearSegmentParameters.length : Int)
  SimulationAddress.serialize self.requesterID
  SimulationAddress.serialize self.receivingID
  ObjectType.serialize self.objectType
  W.forEach self.linearSegmentParameters LinearSegmentParameter.serialize

/-- `LinearObjectStatePdu.parse`, /repo/opendis/dis7.py:4161-4175; returns the updated object. -/
def LinearObjectStatePdu.parse (self : LinearObjectStatePdu) : R LinearObjectStatePdu := do
  let base ← SyntheticEnvironmentFamilyPdu.parse self.toSyntheticEnvironmentFamilyPdu
  let objectID ← EntityIdentifier.parse self.objectID
  let referencedObjectID ← EntityIdentifier.parse self.referencedObjectID
  let updateNumber ← read_unsigned_short
  let forceID ← read_unsigned_byte
  let numberOfSegments ← read_unsigned_byte
  let requesterID ← SimulationAddress.parse self.requesterID
  let receivingID ← SimulationAddress.parse self.receivingID
  let objectType ← ObjectType.parse self.objectType
  let linearSegmentParameters ← R.times numberOfSegments.toNat (LinearSegmentParameter.parse LinearSegmentParameter.init)
  return { self with
    toSyntheticEnvironmentFamilyPdu := base,
    objectID := objectID,
    referencedObjectID := referencedObjectID,
    updateNumber := updateNumber,
    forceID := forceID,
    requesterID := requesterID,
    receivingID := receivingID,
    objectType := objectType,
    linearSegmentParameters := self.linearSegmentParameters ++ linearSegmentParameters }

/-- Attributes of a `CreateEntityPdu` object, /repo/opendis/dis7.py:4178-4198; default values are those of an
object made by `CreateEntityPdu()`, /repo/opendis/dis7.py:4185-4188. -/
structure CreateEntityPdu extends SimulationManagementFamilyPdu where
  requestID : Int := 0
  pduType := 11
  deriving DecidableEq

/-- Constructor `CreateEntityPdu(...)`, /repo/opendis/dis7.py:4185-4188. `x or T()` and `x or []` keep a given
value and replace `None` (absent) by a fresh one. -/
def CreateEntityPdu.init (requestID : Int := 0) : CreateEntityPdu :=
  { requestID := requestID }

/-- `CreateEntityPdu.serialize`, /repo/opendis/dis7.py:4190-4193. -/
def CreateEntityPdu.serialize (self : CreateEntityPdu) : W Unit := do
  SimulationManagementFamilyPdu.serialize self.toSimulationManagementFamilyPdu
  write_unsigned_int self.requestID

/-- `CreateEntityPdu.parse`, /repo/opendis/dis7.py:4195-4198; returns the updated object. -/
def CreateEntityPdu.parse (self : CreateEntityPdu) : R CreateEntityPdu := do
  let base ← SimulationManagementFamilyPdu.parse self.toSimulationManagementFamilyPdu
  let requestID ← read_unsigned_int
  return { self with toSimulationManagementFamilyPdu := base, requestID := requestID }

/-- Attributes of a `RadioCommunicationsFamilyPdu` object, /repo/opendis/dis7.py:4201-4217; default values are those of an
object made by `RadioCommunicationsFamilyPdu()`, /repo/opendis/dis7.py:4208-4209. -/
structure RadioCommunicationsFamilyPdu extends Pdu where
  protocolFamily := 4
  deriving DecidableEq

/-- `RadioCommunicationsFamilyPdu.serialize`, /repo/opendis/dis7.py:4211-4213. -/
def RadioCommunicationsFamilyPdu.serialize (self : RadioCommunicationsFamilyPdu) : W Unit := do
  Pdu.serialize self.toPdu

/-- `RadioCommunicationsFamilyPdu.parse`, /repo/opendis/dis7.py:4215-4217; returns the updated object. -/
def RadioCommunicationsFamilyPdu.parse (self : RadioCommunicationsFamilyPdu) : R RadioCommunicationsFamilyPdu := do
  let base ← Pdu.parse self.toPdu
  return { self with toPdu := base }

/-- Attributes of a `IntercomSignalPdu` object, /repo/opendis/dis7.py:4220-4280; default values are those of an
object made by `IntercomSignalPdu()`, /repo/opendis/dis7.py:4227-4244. -/
structure IntercomSignalPdu extends RadioCommunicationsFamilyPdu where
  entityID : EntityIdentifier := EntityIdentifier.init
  communicationsDeviceID : Int := 0
  encodingScheme : Int := 0
  tdlType : Int := 0
  sampleRate : Int := 0
  samples : Int := 0
  data : List Int := []
  pduType := 31
  deriving DecidableEq

/-- Constructor `IntercomSignalPdu(...)`, /repo/opendis/dis7.py:4227-4244. `x or T()` and `x or []` keep a given
value and replace `None` (absent) by a fresh one. -/
def IntercomSignalPdu.init (entityID : Option EntityIdentifier := none)
    (communicationsDeviceID : Int := 0) (encodingScheme : Int := 0) (tdlType : Int := 0)
    (sampleRate : Int := 0) (samples : Int := 0) (data : List Int := []) : IntercomSignalPdu :=
  { entityID := entityID.getD EntityIdentifier.init,
    communicationsDeviceID := communicationsDeviceID,
    encodingScheme := encodingScheme,
    tdlType := tdlType,
    sampleRate := sampleRate,
    samples := samples,
    data := data }

/-- `IntercomSignalPdu.serialize`, /repo/opendis/dis7.py:4252-4263. -/
def IntercomSignalPdu.serialize (self : IntercomSignalPdu) : W Unit := do
  RadioCommunicationsFamilyPdu.serialize self.toRadioCommunicationsFamilyPdu
  EntityIdentifier.serialize self.entityID
  write_unsigned_short self.communicationsDeviceID
  write_unsigned_short self.encodingScheme
  write_unsigned_short self.tdlType
  write_unsigned_int self.sampleRate
  write_unsigned_short ((self.data.length : Int) * 8)
  write_unsigned_short self.samples
  W.forEach self.data fun _ => W.throw .attributeError

/-- `IntercomSignalPdu.parse`, /repo/opendis/dis7.py:4265-4280; returns the updated object. -/
def IntercomSignalPdu.parse (self : IntercomSignalPdu) : R IntercomSignalPdu := do
  let base ← RadioCommunicationsFamilyPdu.parse self.toRadioCommunicationsFamilyPdu
  let entityID ← EntityIdentifier.parse self.entityID
  let communicationsDeviceID ← read_unsigned_short
  let encodingScheme ← read_unsigned_short
  let tdlType ← read_unsigned_short
  let sampleRate ← read_unsigned_int
  let dataLength ← read_unsigned_short
  let samples ← read_unsigned_short
  let data ← R.times (dataLength / 8).toNat (R.throw .nameError : R Int)
  return { self with
    toRadioCommunicationsFamilyPdu := base,
    entityID := entityID,
    communicationsDeviceID := communicationsDeviceID,
    encodingScheme := encodingScheme,
    tdlType := tdlType,
    sampleRate := sampleRate,
    samples := samples,
    data := self.data ++ data }

/-- Attributes of a `RemoveEntityPdu` object, /repo/opendis/dis7.py:4283-4305; default values are those of an
object made by `RemoveEntityPdu()`, /repo/opendis/dis7.py:4291-4295. -/
structure RemoveEntityPdu extends SimulationManagementFamilyPdu where
  requestID : Int := 0
  pduType := 12
  deriving DecidableEq

/-- Constructor `RemoveEntityPdu(...)`, /repo/opendis/dis7.py:4291-4295. `x or T()` and `x or []` keep a given
value and replace `None` (absent) by a fresh one. -/
def RemoveEntityPdu.init (requestID : Int := 0) : RemoveEntityPdu :=
  { requestID := requestID }

/-- `RemoveEntityPdu.serialize`, /repo/opendis/dis7.py:4297-4300. -/
def RemoveEntityPdu.serialize (self : RemoveEntityPdu) : W Unit := do
  SimulationManagementFamilyPdu.serialize self.toSimulationManagementFamilyPdu
  write_unsigned_int self.requestID

/-- `RemoveEntityPdu.parse`, /repo/opendis/dis7.py:4302-4305; returns the updated object. -/
def RemoveEntityPdu.parse (self : RemoveEntityPdu) : R RemoveEntityPdu := do
  let base ← SimulationManagementFamilyPdu.parse self.toSimulationManagementFamilyPdu
  let requestID ← read_unsigned_int
  return { self with toSimulationManagementFamilyPdu := base, requestID := requestID }

/-- Attributes of a `ResupplyReceivedPdu` object, /repo/opendis/dis7.py:4308-4355; default values are those of an
object made by `ResupplyReceivedPdu()`, /repo/opendis/dis7.py:4315-4327. -/
structure ResupplyReceivedPdu extends LogisticsFamilyPdu where
  receivingEntityID : EntityIdentifier := EntityIdentifier.init
  supplyingEntityID : EntityIdentifier := EntityIdentifier.init
  padding1 : Int := 0
  padding2 : Int := 0
  supplies : List SupplyQuantity := []
  pduType := 7
  deriving DecidableEq

/-- Constructor `ResupplyReceivedPdu(...)`, /repo/opendis/dis7.py:4315-4327. `x or T()` and `x or []` keep a given
value and replace `None` (absent) by a fresh one. -/
def ResupplyReceivedPdu.init (receivingEntityID : Option EntityIdentifier := none)
    (supplyingEntityID : Option EntityIdentifier := none) (supplies : List SupplyQuantity := []) : ResupplyReceivedPdu :=
  { receivingEntityID := receivingEntityID.getD EntityIdentifier.init,
    supplyingEntityID := supplyingEntityID.getD EntityIdentifier.init,
    padding1 := 0,
    padding2 := 0,
    supplies := supplies }

/-- `ResupplyReceivedPdu.serialize`, /repo/opendis/dis7.py:4333-4342. -/
def ResupplyReceivedPdu.serialize (self : ResupplyReceivedPdu) : W Unit := do
  LogisticsFamilyPdu.serialize self.toLogisticsFamilyPdu
  EntityIdentifier.serialize self.receivingEntityID
  EntityIdentifier.serialize self.supplyingEntityID
  write_unsigned_byte (self.supplies.length : Int)
  write_short self.padding1
  write_byte self.padding2
  W.forEach self.supplies SupplyQuantity.serialize

/-- `ResupplyReceivedPdu.parse`, /repo/opendis/dis7.py:4344-4355; returns the updated object. -/
def ResupplyReceivedPdu.parse (self : ResupplyReceivedPdu) : R ResupplyReceivedPdu := do
  let base ← LogisticsFamilyPdu.parse self.toLogisticsFamilyPdu
  let receivingEntityID ← EntityIdentifier.parse self.receivingEntityID
  let supplyingEntityID ← EntityIdentifier.parse self.supplyingEntityID
  let numberOfSupplyTypes ← read_unsigned_byte
  let padding1 ← read_short
  let padding2 ← read_byte
  let supplies ← R.times numberOfSupplyTypes.toNat (R.throw .nameError : R SupplyQuantity)
  return { self with
    toLogisticsFamilyPdu := base,
    receivingEntityID := receivingEntityID,
    supplyingEntityID := supplyingEntityID,
    padding1 := padding1,
    padding2 := padding2,
    supplies := self.supplies ++ supplies }

/-- Attributes of a `WarfareFamilyPdu` object, /repo/opendis/dis7.py:4358-4385; default values are those of an
object made by `WarfareFamilyPdu()`, /repo/opendis/dis7.py:4366-4373. -/
structure WarfareFamilyPdu extends Pdu where
  firingEntityID : EntityIdentifier := EntityIdentifier.init
  targetEntityID : EntityIdentifier := EntityIdentifier.init
  protocolFamily := 2
  deriving DecidableEq

/-- `WarfareFamilyPdu.serialize`, /repo/opendis/dis7.py:4375-4379. -/
def WarfareFamilyPdu.serialize (self : WarfareFamilyPdu) : W Unit := do
  Pdu.serialize self.toPdu
  EntityIdentifier.serialize self.firingEntityID
  EntityIdentifier.serialize self.targetEntityID

/-- `WarfareFamilyPdu.parse`, /repo/opendis/dis7.py:4381-4385; returns the updated object. -/
def WarfareFamilyPdu.parse (self : WarfareFamilyPdu) : R WarfareFamilyPdu := do
  let base ← Pdu.parse self.toPdu
  let firingEntityID ← EntityIdentifier.parse self.firingEntityID
  let targetEntityID ← EntityIdentifier.parse self.targetEntityID
  return { self with
    toPdu := base,
    firingEntityID := firingEntityID,
    targetEntityID := targetEntityID }

/-- Attributes of a `CollisionElasticPdu` object, /repo/opendis/dis7.py:4388-4474; default values are those of an
object made by `CollisionElasticPdu()`, /repo/opendis/dis7.py:4396-4436. -/
structure CollisionElasticPdu extends EntityInformationFamilyPdu where
  issuingEntityID : EntityIdentifier := EntityIdentifier.init
  collidingEntityID : EntityIdentifier := EntityIdentifier.init
  collisionEventID : EventIdentifier := EventIdentifier.init
  pad : Int := 0
  contactVelocity : Vector3Float := Vector3Float.init
  mass : F64 := 0x0000000000000000
  locationOfImpact : Vector3Float := Vector3Float.init
  collisionIntermediateResultXX : F64 := 0x0000000000000000
  collisionIntermediateResultXY : F64 := 0x0000000000000000
  collisionIntermediateResultXZ : F64 := 0x0000000000000000
  collisionIntermediateResultYY : F64 := 0x0000000000000000
  collisionIntermediateResultYZ : F64 := 0x0000000000000000
  collisionIntermediateResultZZ : F64 := 0x0000000000000000
  unitSurfaceNormal : Vector3Float := Vector3Float.init
  coefficientOfRestitution : F64 := 0x0000000000000000
  pduType := 66
  deriving DecidableEq

/-- Constructor `CollisionElasticPdu(...)`, /repo/opendis/dis7.py:4396-4436. `x or T()` and `x or []` keep a given
value and replace `None` (absent) by a fresh one. -/
def CollisionElasticPdu.init (issuingEntityID : Option EntityIdentifier := none)
    (collidingEntityID : Option EntityIdentifier := none)
    (collisionEventID : Option EventIdentifier := none)
    (contactVelocity : Option Vector3Float := none) (mass : F64 := 0x0000000000000000)
    (locationOfImpact : Option Vector3Float := none)
    (collisionIntermediateResultXX : F64 := 0x0000000000000000)
    (collisionIntermediateResultXY : F64 := 0x0000000000000000)
    (collisionIntermediateResultXZ : F64 := 0x0000000000000000)
    (collisionIntermediateResultYY : F64 := 0x0000000000000000)
    (collisionIntermediateResultYZ : F64 := 0x0000000000000000)
    (collisionIntermediateResultZZ : F64 := 0x0000000000000000)
    (unitSurfaceNormal : Option Vector3Float := none)
    (coefficientOfRestitution : F64 := 0x0000000000000000) : CollisionElasticPdu :=
  { issuingEntityID := issuingEntityID.getD EntityIdentifier.init,
    collidingEntityID := collidingEntityID.getD EntityIdentifier.init,
    collisionEventID := collisionEventID.getD EventIdentifier.init,
    pad := 0,
    contactVelocity := contactVelocity.getD Vector3Float.init,
    mass := mass,
    locationOfImpact := locationOfImpact.getD Vector3Float.init,
    collisionIntermediateResultXX := collisionIntermediateResultXX,
    collisionIntermediateResultXY := collisionIntermediateResultXY,
    collisionIntermediateResultXZ := collisionIntermediateResultXZ,
    collisionIntermediateResultYY := collisionIntermediateResultYY,
    collisionIntermediateResultYZ := collisionIntermediateResultYZ,
    collisionIntermediateResultZZ := collisionIntermediateResultZZ,
    unitSurfaceNormal := unitSurfaceNormal.getD Vector3Float.init,
    coefficientOfRestitution := coefficientOfRestitution }

/-- `CollisionElasticPdu.serialize`, /repo/opendis/dis7.py:4438-4455. -/
def CollisionElasticPdu.serialize (self : CollisionElasticPdu) : W Unit := do
  EntityInformationFamilyPdu.serialize self.toEntityInformationFamilyPdu
  EntityIdentifier.serialize self.issuingEntityID
  EntityIdentifier.serialize self.collidingEntityID
  EventIdentifier.serialize self.collisionEventID
  write_short self.pad
  Vector3Float.serialize self.contactVelocity
  write_float self.mass
  Vector3Float.serialize self.locationOfImpact
  write_float self.collisionIntermediateResultXX
  write_float self.collisionIntermediateResultXY
  write_float self.collisionIntermediateResultXZ
  write_float self.collisionIntermediateResultYY
  write_float self.collisionIntermediateResultYZ
  write_float self.collisionIntermediateResultZZ
  Vector3Float.serialize self.unitSurfaceNormal
  write_float self.coefficientOfRestitution

/-- `CollisionElasticPdu.parse`, /repo/opendis/dis7.py:4457-4474; returns the updated object. -/
def CollisionElasticPdu.parse (self : CollisionElasticPdu) : R CollisionElasticPdu := do
  let base ← EntityInformationFamilyPdu.parse self.toEntityInformationFamilyPdu
  let issuingEntityID ← EntityIdentifier.parse self.issuingEntityID
  let collidingEntityID ← EntityIdentifier.parse self.collidingEntityID
  let collisionEventID ← EventIdentifier.parse self.collisionEventID
  let pad ← read_short
  let contactVelocity ← Vector3Float.parse self.contactVelocity
  let mass ← read_float
  let locationOfImpact ← Vector3Float.parse self.locationOfImpact
  let collisionIntermediateResultXX ← read_float
  let collisionIntermediateResultXY ← read_float
  let collisionIntermediateResultXZ ← read_float
  let collisionIntermediateResultYY ← read_float
  let collisionIntermediateResultYZ ← read_float
  let collisionIntermediateResultZZ ← read_float
  let unitSurfaceNormal ← Vector3Float.parse self.unitSurfaceNormal
  let coefficientOfRestitution ← read_float
  return { self with
    toEntityInformationFamilyPdu := base,
    issuingEntityID := issuingEntityID,
    collidingEntityID := collidingEntityID,
    collisionEventID := collisionEventID,
    pad := pad,
    contactVelocity := contactVelocity,
    mass := mass,
    locationOfImpact := locationOfImpact,
    collisionIntermediateResultXX := collisionIntermediateResultXX,
    collisionIntermediateResultXY := collisionIntermediateResultXY,
    collisionIntermediateResultXZ := collisionIntermediateResultXZ,
    collisionIntermediateResultYY := collisionIntermediateResultYY,
    collisionIntermediateResultYZ := collisionIntermediateResultYZ,
    collisionIntermediateResultZZ := collisionIntermediateResultZZ,
    unitSurfaceNormal := unitSurfaceNormal,
    coefficientOfRestitution := coefficientOfRestitution }

/-- Attributes of a `ActionRequestPdu` object, /repo/opendis/dis7.py:4477-4527; default values are those of an
object made by `ActionRequestPdu()`, /repo/opendis/dis7.py:4485-4497. -/
structure ActionRequestPdu extends SimulationManagementFamilyPdu where
  requestID : Int := 0
  actionID : Int := 0
  _datums : DatumSpecification := DatumSpecification.init
  pduType := 16
  deriving DecidableEq

/-- Constructor `ActionRequestPdu(...)`, /repo/opendis/dis7.py:4485-4497. `x or T()` and `x or []` keep a given
value and replace `None` (absent) by a fresh one. -/
def ActionRequestPdu.init (requestID : Int := 0) (actionID : Int := 0)
    (fixedDatumRecords : List FixedDatum := []) (variableDatumRecords : List VariableDatum := []) : ActionRequestPdu :=
  { requestID := requestID,
    actionID := actionID,
    _datums := DatumSpecification.init fixedDatumRecords variableDatumRecords }

/-- `ActionRequestPdu.serialize`, /repo/opendis/dis7.py:4515-4520. -/
def ActionRequestPdu.serialize (self : ActionRequestPdu) : W Unit := do
  SimulationManagementFamilyPdu.serialize self.toSimulationManagementFamilyPdu
  write_unsigned_int self.requestID
  write_unsigned_int self.actionID
  DatumSpecification.serialize self._datums

/-- `ActionRequestPdu.parse`, /repo/opendis/dis7.py:4522-4527; returns the updated object. -/
def ActionRequestPdu.parse (self : ActionRequestPdu) : R ActionRequestPdu := do
  let base ← SimulationManagementFamilyPdu.parse self.toSimulationManagementFamilyPdu
  let requestID ← read_unsigned_int
  let actionID ← read_unsigned_int
  let _datums ← DatumSpecification.parse self._datums
  return { self with
    toSimulationManagementFamilyPdu := base,
    requestID := requestID,
    actionID := actionID,
    _datums := _datums }

/-- Attributes of a `AcknowledgePdu` object, /repo/opendis/dis7.py:4530-4562; default values are those of an
object made by `AcknowledgePdu()`, /repo/opendis/dis7.py:4538-4548. -/
structure AcknowledgePdu extends SimulationManagementFamilyPdu where
  acknowledgeFlag : Int := 0
  responseFlag : Int := 0
  requestID : Int := 0
  pduType := 15
  deriving DecidableEq

/-- Constructor `AcknowledgePdu(...)`, /repo/opendis/dis7.py:4538-4548. `x or T()` and `x or []` keep a given
value and replace `None` (absent) by a fresh one. -/
def AcknowledgePdu.init (acknowledgeFlag : Int := 0) (responseFlag : Int := 0)
    (requestID : Int := 0) : AcknowledgePdu :=
  { acknowledgeFlag := acknowledgeFlag,
    responseFlag := responseFlag,
    requestID := requestID }

/-- `AcknowledgePdu.serialize`, /repo/opendis/dis7.py:4550-4555. -/
def AcknowledgePdu.serialize (self : AcknowledgePdu) : W Unit := do
  SimulationManagementFamilyPdu.serialize self.toSimulationManagementFamilyPdu
  write_unsigned_short self.acknowledgeFlag
  write_unsigned_short self.responseFlag
  write_unsigned_int self.requestID

/-- `AcknowledgePdu.parse`, /repo/opendis/dis7.py:4557-4562; returns the updated object. -/
def AcknowledgePdu.parse (self : AcknowledgePdu) : R AcknowledgePdu := do
  let base ← SimulationManagementFamilyPdu.parse self.toSimulationManagementFamilyPdu
  let acknowledgeFlag ← read_unsigned_short
  let responseFlag ← read_unsigned_short
  let requestID ← read_unsigned_int
  return { self with
    toSimulationManagementFamilyPdu := base,
    acknowledgeFlag := acknowledgeFlag,
    responseFlag := responseFlag,
    requestID := requestID }

/-- Attributes of a `DistributedEmissionsFamilyPdu` object, /repo/opendis/dis7.py:4565-4581; default values are those of an
object made by `DistributedEmissionsFamilyPdu()`, /repo/opendis/dis7.py:4572-4573. -/
structure DistributedEmissionsFamilyPdu extends Pdu where
  protocolFamily := 6
  deriving DecidableEq

/-- `DistributedEmissionsFamilyPdu.serialize`, /repo/opendis/dis7.py:4575-4577. -/
def DistributedEmissionsFamilyPdu.serialize (self : DistributedEmissionsFamilyPdu) : W Unit := do
  Pdu.serialize self.toPdu

/-- `DistributedEmissionsFamilyPdu.parse`, /repo/opendis/dis7.py:4579-4581; returns the updated object. -/
def DistributedEmissionsFamilyPdu.parse (self : DistributedEmissionsFamilyPdu) : R DistributedEmissionsFamilyPdu := do
  let base ← Pdu.parse self.toPdu
  return { self with toPdu := base }

/-- Attributes of a `SimulationManagementWithReliabilityFamilyPdu` object, /repo/opendis/dis7.py:4584-4610; default values are those of an
object made by `SimulationManagementWithReliabilityFamilyPdu()`, /repo/opendis/dis7.py:4591-4598. -/
structure SimulationManagementWithReliabilityFamilyPdu extends Pdu where
  originatingEntityID : EntityIdentifier := EntityIdentifier.init
  receivingEntityID : EntityIdentifier := EntityIdentifier.init
  protocolFamily := 10
  deriving DecidableEq

/-- `SimulationManagementWithReliabilityFamilyPdu.serialize`, /repo/opendis/dis7.py:4600-4604. -/
def SimulationManagementWithReliabilityFamilyPdu.serialize (self : SimulationManagementWithReliabilityFamilyPdu) : W Unit := do
  Pdu.serialize self.toPdu
  EntityIdentifier.serialize self.originatingEntityID
  EntityIdentifier.serialize self.receivingEntityID

/-- `SimulationManagementWithReliabilityFamilyPdu.parse`, /repo/opendis/dis7.py:4606-4610; returns the updated object. -/
def SimulationManagementWithReliabilityFamilyPdu.parse (self : SimulationManagementWithReliabilityFamilyPdu) : R SimulationManagementWithReliabilityFamilyPdu := do
  let base ← Pdu.parse self.toPdu
  let originatingEntityID ← EntityIdentifier.parse self.originatingEntityID
  let receivingEntityID ← EntityIdentifier.parse self.receivingEntityID
  return { self with
    toPdu := base,
    originatingEntityID := originatingEntityID,
    receivingEntityID := receivingEntityID }

/-- Attributes of a `ActionRequestReliablePdu` object, /repo/opendis/dis7.py:4613-4675; default values are those of an
object made by `ActionRequestReliablePdu()`, /repo/opendis/dis7.py:4621-4637. -/
structure ActionRequestReliablePdu extends SimulationManagementWithReliabilityFamilyPdu where
  requiredReliabilityService : Int := 0
  pad1 : Int := 0
  pad2 : Int := 0
  requestID : Int := 0
  actionID : Int := 0
  pad3 : Int := 0
  _datums : DatumSpecification := DatumSpecification.init
  pduType := 56
  deriving DecidableEq

/-- Constructor `ActionRequestReliablePdu(...)`, /repo/opendis/dis7.py:4621-4637. `x or T()` and `x or []` keep a given
value and replace `None` (absent) by a fresh one. -/
def ActionRequestReliablePdu.init (requiredReliabilityService : Int := 0) (requestID : Int := 0)
    (actionID : Int := 0) (fixedDatumRecords : List FixedDatum := [])
    (variableDatumRecords : List VariableDatum := []) : ActionRequestReliablePdu :=
  { requiredReliabilityService := requiredReliabilityService,
    pad1 := 0,
    pad2 := 0,
    requestID := requestID,
    actionID := actionID,
    pad3 := 0,
    _datums := DatumSpecification.init fixedDatumRecords variableDatumRecords }

/-- `ActionRequestReliablePdu.serialize`, /repo/opendis/dis7.py:4655-4664. -/
def ActionRequestReliablePdu.serialize (self : ActionRequestReliablePdu) : W Unit := do
  SimulationManagementWithReliabilityFamilyPdu.serialize self.toSimulationManagementWithReliabilityFamilyPdu
  write_unsigned_byte self.requiredReliabilityService
  write_unsigned_short self.pad1
  write_unsigned_byte self.pad2
  write_unsigned_int self.requestID
  write_unsigned_int self.actionID
  write_int self.pad3
  DatumSpecification.serialize self._datums

/-- `ActionRequestReliablePdu.parse`, /repo/opendis/dis7.py:4666-4675; returns the updated object. -/
def ActionRequestReliablePdu.parse (self : ActionRequestReliablePdu) : R ActionRequestReliablePdu := do
  let base ← SimulationManagementWithReliabilityFamilyPdu.parse self.toSimulationManagementWithReliabilityFamilyPdu
  let requiredReliabilityService ← read_unsigned_byte
  let pad1 ← read_unsigned_short
  let pad2 ← read_unsigned_byte
  let requestID ← read_unsigned_int
  let actionID ← read_unsigned_int
  let pad3 ← read_int
  let _datums ← DatumSpecification.parse self._datums
  return { self with
    toSimulationManagementWithReliabilityFamilyPdu := base,
    requiredReliabilityService := requiredReliabilityService,
    pad1 := pad1,
    pad2 := pad2,
    requestID := requestID,
    actionID := actionID,
    pad3 := pad3,
    _datums := _datums }

end Dis
