import Verif.Model.Heap3

/-!
# Methods as programs on a memory of objects, part 4

Generated by `tools/genheap.py` from the Python source; each definition cites the lines it transliterates.
-/

set_option linter.unusedVariables false
set_option linter.unusedSimpArgs false

namespace Dis

/-- Attributes of a `CreateEntityPdu` object before `__init__` (/repo/opendis/dis7.py:4178-4198): class attributes have
values. -/
def CreateEntityPdu.attrs : List (String × Scalar) :=
  [("protocolVersion", .absent), ("exerciseID", .absent), ("pduType", .int 11),
   ("protocolFamily", .int 5), ("timestamp", .absent), ("length", .absent), ("pduStatus", .absent),
   ("padding", .absent), ("originatingEntityID", .absent), ("receivingEntityID", .absent),
   ("requestID", .absent)]

/-- `CreateEntityPdu.__init__`, /repo/opendis/dis7.py:4185-4188, statement by statement. -/
def CreateEntityPdu.initHeap (self : Ref) (requestID : Val := .sc (.int 0)) : H Unit := do
  SimulationManagementFamilyPdu.initHeap self
  H.setAttr self "requestID" requestID

/-- `CreateEntityPdu(...)`, /repo/opendis/dis7.py:4185-4188. -/
def CreateEntityPdu.newHeap (requestID : Val := .sc (.int 0)) : H Ref :=
  H.new CreateEntityPdu.attrs fun self => CreateEntityPdu.initHeap self requestID

/-- `CreateEntityPdu.parse`, /repo/opendis/dis7.py:4195-4198, statement by statement. -/
def CreateEntityPdu.parseHeap (self : Ref) : H Unit := do
  SimulationManagementFamilyPdu.parseHeap self
  let requestID ← H.read read_unsigned_int
  H.setAttr self "requestID" (.sc (.int requestID))
  return ()

/-- `CreateEntityPdu.serialize`, /repo/opendis/dis7.py:4190-4193, statement by statement. -/
def CreateEntityPdu.serializeHeap (self : Ref) : S Unit := do
  SimulationManagementFamilyPdu.serializeHeap self
  S.putInt self "requestID" write_unsigned_int

/-- `RadioCommunicationsFamilyPdu.__init__`, /repo/opendis/dis7.py:4208-4209, statement by statement. -/
def RadioCommunicationsFamilyPdu.initHeap (self : Ref) : H Unit := do
  Pdu.initHeap self

/-- `RadioCommunicationsFamilyPdu.parse`, /repo/opendis/dis7.py:4215-4217, statement by statement. -/
def RadioCommunicationsFamilyPdu.parseHeap (self : Ref) : H Unit := do
  Pdu.parseHeap self
  return ()

/-- `RadioCommunicationsFamilyPdu.serialize`, /repo/opendis/dis7.py:4211-4213, statement by statement. -/
def RadioCommunicationsFamilyPdu.serializeHeap (self : Ref) : S Unit := do
  Pdu.serializeHeap self

/-- Attributes of a `IntercomSignalPdu` object before `__init__` (/repo/opendis/dis7.py:4220-4280): class attributes have
values. -/
def IntercomSignalPdu.attrs : List (String × Scalar) :=
  [("protocolVersion", .absent), ("exerciseID", .absent), ("pduType", .int 31),
   ("protocolFamily", .int 4), ("timestamp", .absent), ("length", .absent), ("pduStatus", .absent),
   ("padding", .absent), ("entityID", .absent), ("communicationsDeviceID", .absent),
   ("encodingScheme", .absent), ("tdlType", .absent), ("sampleRate", .absent), ("samples", .absent),
   ("data", .absent)]

/-- `IntercomSignalPdu.__init__`, /repo/opendis/dis7.py:4227-4244, statement by statement. -/
def IntercomSignalPdu.initHeap (self : Ref) (entityID : Val := .sc .none)
    (communicationsDeviceID : Val := .sc (.int 0)) (encodingScheme : Val := .sc (.int 0))
    (tdlType : Val := .sc (.int 0)) (sampleRate : Val := .sc (.int 0))
    (samples : Val := .sc (.int 0)) (data : Val := .sc .none) : H Unit := do
  RadioCommunicationsFamilyPdu.initHeap self
  H.setOr self "entityID" entityID EntityIdentifier.newHeap
  H.setAttr self "communicationsDeviceID" communicationsDeviceID
  H.setAttr self "encodingScheme" encodingScheme
  H.setAttr self "tdlType" tdlType
  H.setAttr self "sampleRate" sampleRate
  H.setAttr self "samples" samples
  H.setOr self "data" data (H.alloc (.list []))

/-- `IntercomSignalPdu(...)`, /repo/opendis/dis7.py:4227-4244. -/
def IntercomSignalPdu.newHeap (entityID : Val := .sc .none)
    (communicationsDeviceID : Val := .sc (.int 0)) (encodingScheme : Val := .sc (.int 0))
    (tdlType : Val := .sc (.int 0)) (sampleRate : Val := .sc (.int 0))
    (samples : Val := .sc (.int 0)) (data : Val := .sc .none) : H Ref :=
  H.new IntercomSignalPdu.attrs fun self => IntercomSignalPdu.initHeap self entityID communicationsDeviceID encodingScheme tdlType sampleRate samples data

/-- `IntercomSignalPdu.parse`, /repo/opendis/dis7.py:4265-4280, statement by statement. -/
def IntercomSignalPdu.parseHeap (self : Ref) : H Unit := do
  RadioCommunicationsFamilyPdu.parseHeap self
  H.call self "entityID" EntityIdentifier.parseHeap
  let communicationsDeviceID ← H.read read_unsigned_short
  H.setAttr self "communicationsDeviceID" (.sc (.int communicationsDeviceID))
  let encodingScheme ← H.read read_unsigned_short
  H.setAttr self "encodingScheme" (.sc (.int encodingScheme))
  let tdlType ← H.read read_unsigned_short
  H.setAttr self "tdlType" (.sc (.int tdlType))
  let sampleRate ← H.read read_unsigned_int
  H.setAttr self "sampleRate" (.sc (.int sampleRate))
  let dataLength ← H.read read_unsigned_short
  let samples ← H.read read_unsigned_short
  H.setAttr self "samples" (.sc (.int samples))
  H.appendReads (dataLength / 8).toNat (R.throw .nameError : R Int) .int self "data"
  return ()

/-- `IntercomSignalPdu.serialize`, /repo/opendis/dis7.py:4252-4263, statement by statement. -/
def IntercomSignalPdu.serializeHeap (self : Ref) : S Unit := do
  RadioCommunicationsFamilyPdu.serializeHeap self
  S.call self "entityID" EntityIdentifier.serializeHeap
  S.putInt self "communicationsDeviceID" write_unsigned_short
  S.putInt self "encodingScheme" write_unsigned_short
  S.putInt self "tdlType" write_unsigned_short
  S.putInt self "sampleRate" write_unsigned_int
  S.putLen self "data" fun n => write_unsigned_short (n * 8)
  S.putInt self "samples" write_unsigned_short
  S.each self "data" fun _ => S.throw .attributeError

/-- Attributes of a `RemoveEntityPdu` object before `__init__` (/repo/opendis/dis7.py:4283-4305): class attributes have
values. -/
def RemoveEntityPdu.attrs : List (String × Scalar) :=
  [("protocolVersion", .absent), ("exerciseID", .absent), ("pduType", .int 12),
   ("protocolFamily", .int 5), ("timestamp", .absent), ("length", .absent), ("pduStatus", .absent),
   ("padding", .absent), ("originatingEntityID", .absent), ("receivingEntityID", .absent),
   ("requestID", .absent)]

/-- `RemoveEntityPdu.__init__`, /repo/opendis/dis7.py:4291-4295, statement by statement. -/
def RemoveEntityPdu.initHeap (self : Ref) (requestID : Val := .sc (.int 0)) : H Unit := do
  SimulationManagementFamilyPdu.initHeap self
  H.setAttr self "requestID" requestID

/-- `RemoveEntityPdu(...)`, /repo/opendis/dis7.py:4291-4295. -/
def RemoveEntityPdu.newHeap (requestID : Val := .sc (.int 0)) : H Ref :=
  H.new RemoveEntityPdu.attrs fun self => RemoveEntityPdu.initHeap self requestID

/-- `RemoveEntityPdu.parse`, /repo/opendis/dis7.py:4302-4305, statement by statement. -/
def RemoveEntityPdu.parseHeap (self : Ref) : H Unit := do
  SimulationManagementFamilyPdu.parseHeap self
  let requestID ← H.read read_unsigned_int
  H.setAttr self "requestID" (.sc (.int requestID))
  return ()

/-- `RemoveEntityPdu.serialize`, /repo/opendis/dis7.py:4297-4300, statement by statement. -/
def RemoveEntityPdu.serializeHeap (self : Ref) : S Unit := do
  SimulationManagementFamilyPdu.serializeHeap self
  S.putInt self "requestID" write_unsigned_int

/-- Attributes of a `ResupplyReceivedPdu` object before `__init__` (/repo/opendis/dis7.py:4308-4355): class attributes have
values. -/
def ResupplyReceivedPdu.attrs : List (String × Scalar) :=
  [("protocolVersion", .absent), ("exerciseID", .absent), ("pduType", .int 7),
   ("protocolFamily", .int 3), ("timestamp", .absent), ("length", .absent), ("pduStatus", .absent),
   ("padding", .absent), ("receivingEntityID", .absent), ("supplyingEntityID", .absent),
   ("padding1", .absent), ("padding2", .absent), ("supplies", .absent)]

/-- `ResupplyReceivedPdu.__init__`, /repo/opendis/dis7.py:4315-4327, statement by statement. -/
def ResupplyReceivedPdu.initHeap (self : Ref) (receivingEntityID : Val := .sc .none)
    (supplyingEntityID : Val := .sc .none) (supplies : Val := .sc .none) : H Unit := do
  LogisticsFamilyPdu.initHeap self
  H.setOr self "receivingEntityID" receivingEntityID EntityIdentifier.newHeap
  H.setOr self "supplyingEntityID" supplyingEntityID EntityIdentifier.newHeap
  H.setAttr self "padding1" (.sc (.int 0))
  H.setAttr self "padding2" (.sc (.int 0))
  H.setOr self "supplies" supplies (H.alloc (.list []))

/-- `ResupplyReceivedPdu(...)`, /repo/opendis/dis7.py:4315-4327. -/
def ResupplyReceivedPdu.newHeap (receivingEntityID : Val := .sc .none)
    (supplyingEntityID : Val := .sc .none) (supplies : Val := .sc .none) : H Ref :=
  H.new ResupplyReceivedPdu.attrs fun self => ResupplyReceivedPdu.initHeap self receivingEntityID supplyingEntityID supplies

/-- `ResupplyReceivedPdu.parse`, /repo/opendis/dis7.py:4344-4355, statement by statement. -/
def ResupplyReceivedPdu.parseHeap (self : Ref) : H Unit := do
  LogisticsFamilyPdu.parseHeap self
  H.call self "receivingEntityID" EntityIdentifier.parseHeap
  H.call self "supplyingEntityID" EntityIdentifier.parseHeap
  let numberOfSupplyTypes ← H.read read_unsigned_byte
  let padding1 ← H.read read_short
  H.setAttr self "padding1" (.sc (.int padding1))
  let padding2 ← H.read read_byte
  H.setAttr self "padding2" (.sc (.int padding2))
  H.appendReads numberOfSupplyTypes.toNat (R.throw .nameError : R Int) .int self "supplies"
  return ()

/-- `ResupplyReceivedPdu.serialize`, /repo/opendis/dis7.py:4333-4342, statement by statement. -/
def ResupplyReceivedPdu.serializeHeap (self : Ref) : S Unit := do
  LogisticsFamilyPdu.serializeHeap self
  S.call self "receivingEntityID" EntityIdentifier.serializeHeap
  S.call self "supplyingEntityID" EntityIdentifier.serializeHeap
  S.putLen self "supplies" write_unsigned_byte
  S.putInt self "padding1" write_short
  S.putInt self "padding2" write_byte
  S.each self "supplies" SupplyQuantity.serializeHeap

/-- `WarfareFamilyPdu.__init__`, /repo/opendis/dis7.py:4366-4373, statement by statement. -/
def WarfareFamilyPdu.initHeap (self : Ref) (firingEntityID : Val := .sc .none)
    (targetEntityID : Val := .sc .none) : H Unit := do
  Pdu.initHeap self
  H.setOr self "firingEntityID" firingEntityID EntityIdentifier.newHeap
  H.setOr self "targetEntityID" targetEntityID EntityIdentifier.newHeap

/-- `WarfareFamilyPdu.parse`, /repo/opendis/dis7.py:4381-4385, statement by statement. -/
def WarfareFamilyPdu.parseHeap (self : Ref) : H Unit := do
  Pdu.parseHeap self
  H.call self "firingEntityID" EntityIdentifier.parseHeap
  H.call self "targetEntityID" EntityIdentifier.parseHeap
  return ()

/-- `WarfareFamilyPdu.serialize`, /repo/opendis/dis7.py:4375-4379, statement by statement. -/
def WarfareFamilyPdu.serializeHeap (self : Ref) : S Unit := do
  Pdu.serializeHeap self
  S.call self "firingEntityID" EntityIdentifier.serializeHeap
  S.call self "targetEntityID" EntityIdentifier.serializeHeap

/-- Attributes of a `CollisionElasticPdu` object before `__init__` (/repo/opendis/dis7.py:4388-4474): class attributes have
values. -/
def CollisionElasticPdu.attrs : List (String × Scalar) :=
  [("protocolVersion", .absent), ("exerciseID", .absent), ("pduType", .int 66),
   ("protocolFamily", .int 1), ("timestamp", .absent), ("length", .absent), ("pduStatus", .absent),
   ("padding", .absent), ("issuingEntityID", .absent), ("collidingEntityID", .absent),
   ("collisionEventID", .absent), ("pad", .absent), ("contactVelocity", .absent), ("mass", .absent),
   ("locationOfImpact", .absent), ("collisionIntermediateResultXX", .absent),
   ("collisionIntermediateResultXY", .absent), ("collisionIntermediateResultXZ", .absent),
   ("collisionIntermediateResultYY", .absent), ("collisionIntermediateResultYZ", .absent),
   ("collisionIntermediateResultZZ", .absent), ("unitSurfaceNormal", .absent),
   ("coefficientOfRestitution", .absent)]

/-- `CollisionElasticPdu.__init__`, /repo/opendis/dis7.py:4396-4436, statement by statement. -/
def CollisionElasticPdu.initHeap (self : Ref) (issuingEntityID : Val := .sc .none)
    (collidingEntityID : Val := .sc .none) (collisionEventID : Val := .sc .none)
    (contactVelocity : Val := .sc .none) (mass : Val := .sc (.float 0x0000000000000000))
    (locationOfImpact : Val := .sc .none)
    (collisionIntermediateResultXX : Val := .sc (.float 0x0000000000000000))
    (collisionIntermediateResultXY : Val := .sc (.float 0x0000000000000000))
    (collisionIntermediateResultXZ : Val := .sc (.float 0x0000000000000000))
    (collisionIntermediateResultYY : Val := .sc (.float 0x0000000000000000))
    (collisionIntermediateResultYZ : Val := .sc (.float 0x0000000000000000))
    (collisionIntermediateResultZZ : Val := .sc (.float 0x0000000000000000))
    (unitSurfaceNormal : Val := .sc .none)
    (coefficientOfRestitution : Val := .sc (.float 0x0000000000000000)) : H Unit := do
  EntityInformationFamilyPdu.initHeap self
  H.setOr self "issuingEntityID" issuingEntityID EntityIdentifier.newHeap
  H.setOr self "collidingEntityID" collidingEntityID EntityIdentifier.newHeap
  H.setOr self "collisionEventID" collisionEventID EventIdentifier.newHeap
  H.setAttr self "pad" (.sc (.int 0))
  H.setOr self "contactVelocity" contactVelocity Vector3Float.newHeap
  H.setAttr self "mass" mass
  H.setOr self "locationOfImpact" locationOfImpact Vector3Float.newHeap
  H.setAttr self "collisionIntermediateResultXX" collisionIntermediateResultXX
  H.setAttr self "collisionIntermediateResultXY" collisionIntermediateResultXY
  H.setAttr self "collisionIntermediateResultXZ" collisionIntermediateResultXZ
  H.setAttr self "collisionIntermediateResultYY" collisionIntermediateResultYY
  H.setAttr self "collisionIntermediateResultYZ" collisionIntermediateResultYZ
  H.setAttr self "collisionIntermediateResultZZ" collisionIntermediateResultZZ
  H.setOr self "unitSurfaceNormal" unitSurfaceNormal Vector3Float.newHeap
  H.setAttr self "coefficientOfRestitution" coefficientOfRestitution

/-- `CollisionElasticPdu(...)`, /repo/opendis/dis7.py:4396-4436. -/
def CollisionElasticPdu.newHeap (issuingEntityID : Val := .sc .none)
    (collidingEntityID : Val := .sc .none) (collisionEventID : Val := .sc .none)
    (contactVelocity : Val := .sc .none) (mass : Val := .sc (.float 0x0000000000000000))
    (locationOfImpact : Val := .sc .none)
    (collisionIntermediateResultXX : Val := .sc (.float 0x0000000000000000))
    (collisionIntermediateResultXY : Val := .sc (.float 0x0000000000000000))
    (collisionIntermediateResultXZ : Val := .sc (.float 0x0000000000000000))
    (collisionIntermediateResultYY : Val := .sc (.float 0x0000000000000000))
    (collisionIntermediateResultYZ : Val := .sc (.float 0x0000000000000000))
    (collisionIntermediateResultZZ : Val := .sc (.float 0x0000000000000000))
    (unitSurfaceNormal : Val := .sc .none)
    (coefficientOfRestitution : Val := .sc (.float 0x0000000000000000)) : H Ref :=
  H.new CollisionElasticPdu.attrs fun self => CollisionElasticPdu.initHeap self issuingEntityID collidingEntityID collisionEventID contactVelocity mass locationOfImpact collisionIntermediateResultXX collisionIntermediateResultXY collisionIntermediateResultXZ collisionIntermediateResultYY collisionIntermediateResultYZ collisionIntermediateResultZZ unitSurfaceNormal coefficientOfRestitution

/-- `CollisionElasticPdu.parse`, /repo/opendis/dis7.py:4457-4474, statement by statement. -/
def CollisionElasticPdu.parseHeap (self : Ref) : H Unit := do
  EntityInformationFamilyPdu.parseHeap self
  H.call self "issuingEntityID" EntityIdentifier.parseHeap
  H.call self "collidingEntityID" EntityIdentifier.parseHeap
  H.call self "collisionEventID" EventIdentifier.parseHeap
  let pad ← H.read read_short
  H.setAttr self "pad" (.sc (.int pad))
  H.call self "contactVelocity" Vector3Float.parseHeap
  let mass ← H.read read_float
  H.setAttr self "mass" (.sc (.float mass))
  H.call self "locationOfImpact" Vector3Float.parseHeap
  let collisionIntermediateResultXX ← H.read read_float
  H.setAttr self "collisionIntermediateResultXX" (.sc (.float collisionIntermediateResultXX))
  let collisionIntermediateResultXY ← H.read read_float
  H.setAttr self "collisionIntermediateResultXY" (.sc (.float collisionIntermediateResultXY))
  let collisionIntermediateResultXZ ← H.read read_float
  H.setAttr self "collisionIntermediateResultXZ" (.sc (.float collisionIntermediateResultXZ))
  let collisionIntermediateResultYY ← H.read read_float
  H.setAttr self "collisionIntermediateResultYY" (.sc (.float collisionIntermediateResultYY))
  let collisionIntermediateResultYZ ← H.read read_float
  H.setAttr self "collisionIntermediateResultYZ" (.sc (.float collisionIntermediateResultYZ))
  let collisionIntermediateResultZZ ← H.read read_float
  H.setAttr self "collisionIntermediateResultZZ" (.sc (.float collisionIntermediateResultZZ))
  H.call self "unitSurfaceNormal" Vector3Float.parseHeap
  let coefficientOfRestitution ← H.read read_float
  H.setAttr self "coefficientOfRestitution" (.sc (.float coefficientOfRestitution))
  return ()

/-- `CollisionElasticPdu.serialize`, /repo/opendis/dis7.py:4438-4455, statement by statement. -/
def CollisionElasticPdu.serializeHeap (self : Ref) : S Unit := do
  EntityInformationFamilyPdu.serializeHeap self
  S.call self "issuingEntityID" EntityIdentifier.serializeHeap
  S.call self "collidingEntityID" EntityIdentifier.serializeHeap
  S.call self "collisionEventID" EventIdentifier.serializeHeap
  S.putInt self "pad" write_short
  S.call self "contactVelocity" Vector3Float.serializeHeap
  S.putFloat self "mass" write_float
  S.call self "locationOfImpact" Vector3Float.serializeHeap
  S.putFloat self "collisionIntermediateResultXX" write_float
  S.putFloat self "collisionIntermediateResultXY" write_float
  S.putFloat self "collisionIntermediateResultXZ" write_float
  S.putFloat self "collisionIntermediateResultYY" write_float
  S.putFloat self "collisionIntermediateResultYZ" write_float
  S.putFloat self "collisionIntermediateResultZZ" write_float
  S.call self "unitSurfaceNormal" Vector3Float.serializeHeap
  S.putFloat self "coefficientOfRestitution" write_float

/-- Attributes of a `ActionRequestPdu` object before `__init__` (/repo/opendis/dis7.py:4477-4527): class attributes have
values. -/
def ActionRequestPdu.attrs : List (String × Scalar) :=
  [("protocolVersion", .absent), ("exerciseID", .absent), ("pduType", .int 16),
   ("protocolFamily", .int 5), ("timestamp", .absent), ("length", .absent), ("pduStatus", .absent),
   ("padding", .absent), ("originatingEntityID", .absent), ("receivingEntityID", .absent),
   ("requestID", .absent), ("actionID", .absent), ("_datums", .absent)]

/-- `ActionRequestPdu.__init__`, /repo/opendis/dis7.py:4485-4497, statement by statement. -/
def ActionRequestPdu.initHeap (self : Ref) (requestID : Val := .sc (.int 0))
    (actionID : Val := .sc (.int 0)) (fixedDatumRecords : Val := .sc .none)
    (variableDatumRecords : Val := .sc .none) : H Unit := do
  SimulationManagementFamilyPdu.initHeap self
  H.setAttr self "requestID" requestID
  H.setAttr self "actionID" actionID
  H.setNew self "_datums" (do
      let fixedDatumRecords ← H.orNew fixedDatumRecords (H.alloc (.list []))
      let variableDatumRecords ← H.orNew variableDatumRecords (H.alloc (.list []))
      DatumSpecification.newHeap fixedDatumRecords variableDatumRecords)

/-- `ActionRequestPdu(...)`, /repo/opendis/dis7.py:4485-4497. -/
def ActionRequestPdu.newHeap (requestID : Val := .sc (.int 0)) (actionID : Val := .sc (.int 0))
    (fixedDatumRecords : Val := .sc .none) (variableDatumRecords : Val := .sc .none) : H Ref :=
  H.new ActionRequestPdu.attrs fun self => ActionRequestPdu.initHeap self requestID actionID fixedDatumRecords variableDatumRecords

/-- `ActionRequestPdu.parse`, /repo/opendis/dis7.py:4522-4527, statement by statement. -/
def ActionRequestPdu.parseHeap (self : Ref) : H Unit := do
  SimulationManagementFamilyPdu.parseHeap self
  let requestID ← H.read read_unsigned_int
  H.setAttr self "requestID" (.sc (.int requestID))
  let actionID ← H.read read_unsigned_int
  H.setAttr self "actionID" (.sc (.int actionID))
  H.call self "_datums" DatumSpecification.parseHeap
  return ()

/-- `ActionRequestPdu.serialize`, /repo/opendis/dis7.py:4515-4520, statement by statement. -/
def ActionRequestPdu.serializeHeap (self : Ref) : S Unit := do
  SimulationManagementFamilyPdu.serializeHeap self
  S.putInt self "requestID" write_unsigned_int
  S.putInt self "actionID" write_unsigned_int
  S.call self "_datums" DatumSpecification.serializeHeap

/-- Attributes of a `AcknowledgePdu` object before `__init__` (/repo/opendis/dis7.py:4530-4562): class attributes have
values. -/
def AcknowledgePdu.attrs : List (String × Scalar) :=
  [("protocolVersion", .absent), ("exerciseID", .absent), ("pduType", .int 15),
   ("protocolFamily", .int 5), ("timestamp", .absent), ("length", .absent), ("pduStatus", .absent),
   ("padding", .absent), ("originatingEntityID", .absent), ("receivingEntityID", .absent),
   ("acknowledgeFlag", .absent), ("responseFlag", .absent), ("requestID", .absent)]

/-- `AcknowledgePdu.__init__`, /repo/opendis/dis7.py:4538-4548, statement by statement. -/
def AcknowledgePdu.initHeap (self : Ref) (acknowledgeFlag : Val := .sc (.int 0))
    (responseFlag : Val := .sc (.int 0)) (requestID : Val := .sc (.int 0)) : H Unit := do
  SimulationManagementFamilyPdu.initHeap self
  H.setAttr self "acknowledgeFlag" acknowledgeFlag
  H.setAttr self "responseFlag" responseFlag
  H.setAttr self "requestID" requestID

/-- `AcknowledgePdu(...)`, /repo/opendis/dis7.py:4538-4548. -/
def AcknowledgePdu.newHeap (acknowledgeFlag : Val := .sc (.int 0))
    (responseFlag : Val := .sc (.int 0)) (requestID : Val := .sc (.int 0)) : H Ref :=
  H.new AcknowledgePdu.attrs fun self => AcknowledgePdu.initHeap self acknowledgeFlag responseFlag requestID

/-- `AcknowledgePdu.parse`, /repo/opendis/dis7.py:4557-4562, statement by statement. -/
def AcknowledgePdu.parseHeap (self : Ref) : H Unit := do
  SimulationManagementFamilyPdu.parseHeap self
  let acknowledgeFlag ← H.read read_unsigned_short
  H.setAttr self "acknowledgeFlag" (.sc (.int acknowledgeFlag))
  let responseFlag ← H.read read_unsigned_short
  H.setAttr self "responseFlag" (.sc (.int responseFlag))
  let requestID ← H.read read_unsigned_int
  H.setAttr self "requestID" (.sc (.int requestID))
  return ()

/-- `AcknowledgePdu.serialize`, /repo/opendis/dis7.py:4550-4555, statement by statement. -/
def AcknowledgePdu.serializeHeap (self : Ref) : S Unit := do
  SimulationManagementFamilyPdu.serializeHeap self
  S.putInt self "acknowledgeFlag" write_unsigned_short
  S.putInt self "responseFlag" write_unsigned_short
  S.putInt self "requestID" write_unsigned_int

/-- `DistributedEmissionsFamilyPdu.__init__`, /repo/opendis/dis7.py:4572-4573, statement by statement. -/
def DistributedEmissionsFamilyPdu.initHeap (self : Ref) : H Unit := do
  Pdu.initHeap self

/-- `DistributedEmissionsFamilyPdu.parse`, /repo/opendis/dis7.py:4579-4581, statement by statement. -/
def DistributedEmissionsFamilyPdu.parseHeap (self : Ref) : H Unit := do
  Pdu.parseHeap self
  return ()

/-- `DistributedEmissionsFamilyPdu.serialize`, /repo/opendis/dis7.py:4575-4577, statement by statement. -/
def DistributedEmissionsFamilyPdu.serializeHeap (self : Ref) : S Unit := do
  Pdu.serializeHeap self

/-- `SimulationManagementWithReliabilityFamilyPdu.__init__`, /repo/opendis/dis7.py:4591-4598, statement by statement. -/
def SimulationManagementWithReliabilityFamilyPdu.initHeap (self : Ref)
    (originatingEntityID : Val := .sc .none) (receivingEntityID : Val := .sc .none) : H Unit := do
  Pdu.initHeap self
  H.setOr self "originatingEntityID" originatingEntityID EntityIdentifier.newHeap
  H.setOr self "receivingEntityID" receivingEntityID EntityIdentifier.newHeap

/-- `SimulationManagementWithReliabilityFamilyPdu.parse`, /repo/opendis/dis7.py:4606-4610, statement by statement. -/
def SimulationManagementWithReliabilityFamilyPdu.parseHeap (self : Ref) : H Unit := do
  Pdu.parseHeap self
  H.call self "originatingEntityID" EntityIdentifier.parseHeap
  H.call self "receivingEntityID" EntityIdentifier.parseHeap
  return ()

/-- `SimulationManagementWithReliabilityFamilyPdu.serialize`, /repo/opendis/dis7.py:4600-4604, statement by statement. -/
def SimulationManagementWithReliabilityFamilyPdu.serializeHeap (self : Ref) : S Unit := do
  Pdu.serializeHeap self
  S.call self "originatingEntityID" EntityIdentifier.serializeHeap
  S.call self "receivingEntityID" EntityIdentifier.serializeHeap

/-- Attributes of a `ActionRequestReliablePdu` object before `__init__` (/repo/opendis/dis7.py:4613-4675): class attributes have
values. -/
def ActionRequestReliablePdu.attrs : List (String × Scalar) :=
  [("protocolVersion", .absent), ("exerciseID", .absent), ("pduType", .int 56),
   ("protocolFamily", .int 10), ("timestamp", .absent), ("length", .absent), ("pduStatus", .absent),
   ("padding", .absent), ("originatingEntityID", .absent), ("receivingEntityID", .absent),
   ("requiredReliabilityService", .absent), ("pad1", .absent), ("pad2", .absent),
   ("requestID", .absent), ("actionID", .absent), ("pad3", .absent), ("_datums", .absent)]

/-- `ActionRequestReliablePdu.__init__`, /repo/opendis/dis7.py:4621-4637, statement by statement. -/
def ActionRequestReliablePdu.initHeap (self : Ref)
    (requiredReliabilityService : Val := .sc (.int 0)) (requestID : Val := .sc (.int 0))
    (actionID : Val := .sc (.int 0)) (fixedDatumRecords : Val := .sc .none)
    (variableDatumRecords : Val := .sc .none) : H Unit := do
  SimulationManagementWithReliabilityFamilyPdu.initHeap self
  H.setAttr self "requiredReliabilityService" requiredReliabilityService
  H.setAttr self "pad1" (.sc (.int 0))
  H.setAttr self "pad2" (.sc (.int 0))
  H.setAttr self "requestID" requestID
  H.setAttr self "actionID" actionID
  H.setAttr self "pad3" (.sc (.int 0))
  H.setNew self "_datums" (do
      let fixedDatumRecords ← H.orNew fixedDatumRecords (H.alloc (.list []))
      let variableDatumRecords ← H.orNew variableDatumRecords (H.alloc (.list []))
      DatumSpecification.newHeap fixedDatumRecords variableDatumRecords)

/-- `ActionRequestReliablePdu(...)`, /repo/opendis/dis7.py:4621-4637. -/
def ActionRequestReliablePdu.newHeap (requiredReliabilityService : Val := .sc (.int 0))
    (requestID : Val := .sc (.int 0)) (actionID : Val := .sc (.int 0))
    (fixedDatumRecords : Val := .sc .none) (variableDatumRecords : Val := .sc .none) : H Ref :=
  H.new ActionRequestReliablePdu.attrs fun self => ActionRequestReliablePdu.initHeap self requiredReliabilityService requestID actionID fixedDatumRecords variableDatumRecords

/-- `ActionRequestReliablePdu.parse`, /repo/opendis/dis7.py:4666-4675, statement by statement. -/
def ActionRequestReliablePdu.parseHeap (self : Ref) : H Unit := do
  SimulationManagementWithReliabilityFamilyPdu.parseHeap self
  let requiredReliabilityService ← H.read read_unsigned_byte
  H.setAttr self "requiredReliabilityService" (.sc (.int requiredReliabilityService))
  let pad1 ← H.read read_unsigned_short
  H.setAttr self "pad1" (.sc (.int pad1))
  let pad2 ← H.read read_unsigned_byte
  H.setAttr self "pad2" (.sc (.int pad2))
  let requestID ← H.read read_unsigned_int
  H.setAttr self "requestID" (.sc (.int requestID))
  let actionID ← H.read read_unsigned_int
  H.setAttr self "actionID" (.sc (.int actionID))
  let pad3 ← H.read read_int
  H.setAttr self "pad3" (.sc (.int pad3))
  H.call self "_datums" DatumSpecification.parseHeap
  return ()

/-- `ActionRequestReliablePdu.serialize`, /repo/opendis/dis7.py:4655-4664, statement by statement. -/
def ActionRequestReliablePdu.serializeHeap (self : Ref) : S Unit := do
  SimulationManagementWithReliabilityFamilyPdu.serializeHeap self
  S.putInt self "requiredReliabilityService" write_unsigned_byte
  S.putInt self "pad1" write_unsigned_short
  S.putInt self "pad2" write_unsigned_byte
  S.putInt self "requestID" write_unsigned_int
  S.putInt self "actionID" write_unsigned_int
  S.putInt self "pad3" write_int
  S.call self "_datums" DatumSpecification.serializeHeap

/-- Attributes of a `DesignatorPdu` object before `__init__` (/repo/opendis/dis7.py:4678-4753): class attributes have
values. -/
def DesignatorPdu.attrs : List (String × Scalar) :=
  [("protocolVersion", .absent), ("exerciseID", .absent), ("pduType", .int 24),
   ("protocolFamily", .int 6), ("timestamp", .absent), ("length", .absent), ("pduStatus", .absent),
   ("padding", .absent), ("designatingEntityID", .absent), ("codeName", .absent),
   ("designatedEntityID", .absent), ("designatorCode", .absent), ("designatorPower", .absent),
   ("designatorWavelength", .absent), ("designatorSpotWrtDesignated", .absent),
   ("designatorSpotLocation", .absent), ("deadReckoningAlgorithm", .absent), ("padding1", .absent),
   ("padding2", .absent), ("entityLinearAcceleration", .absent)]

/-- `DesignatorPdu.__init__`, /repo/opendis/dis7.py:4685-4721, statement by statement. -/
def DesignatorPdu.initHeap (self : Ref) (designatingEntityID : Val := .sc .none)
    (codeName : Val := .sc (.int 0)) (designatedEntityID : Val := .sc .none)
    (designatorCode : Val := .sc (.int 0))
    (designatorPower : Val := .sc (.float 0x0000000000000000))
    (designatorWavelength : Val := .sc (.float 0x0000000000000000))
    (designatorSpotWrtDesignated : Val := .sc .none) (designatorSpotLocation : Val := .sc .none)
    (deadReckoningAlgorithm : Val := .sc (.int 0)) (entityLinearAcceleration : Val := .sc .none)
    : H Unit := do
  DistributedEmissionsFamilyPdu.initHeap self
  H.setOr self "designatingEntityID" designatingEntityID EntityIdentifier.newHeap
  H.setAttr self "codeName" codeName
  H.setOr self "designatedEntityID" designatedEntityID EntityIdentifier.newHeap
  H.setAttr self "designatorCode" designatorCode
  H.setAttr self "designatorPower" designatorPower
  H.setAttr self "designatorWavelength" designatorWavelength
  H.setOr self "designatorSpotWrtDesignated" designatorSpotWrtDesignated Vector3Float.newHeap
  H.setOr self "designatorSpotLocation" designatorSpotLocation WorldCoordinates.newHeap
  H.setAttr self "deadReckoningAlgorithm" deadReckoningAlgorithm
  H.setAttr self "padding1" (.sc (.int 0))
  H.setAttr self "padding2" (.sc (.int 0))
  H.setOr self "entityLinearAcceleration" entityLinearAcceleration Vector3Float.newHeap

/-- `DesignatorPdu(...)`, /repo/opendis/dis7.py:4685-4721. -/
def DesignatorPdu.newHeap (designatingEntityID : Val := .sc .none)
    (codeName : Val := .sc (.int 0)) (designatedEntityID : Val := .sc .none)
    (designatorCode : Val := .sc (.int 0))
    (designatorPower : Val := .sc (.float 0x0000000000000000))
    (designatorWavelength : Val := .sc (.float 0x0000000000000000))
    (designatorSpotWrtDesignated : Val := .sc .none) (designatorSpotLocation : Val := .sc .none)
    (deadReckoningAlgorithm : Val := .sc (.int 0)) (entityLinearAcceleration : Val := .sc .none)
    : H Ref :=
  H.new DesignatorPdu.attrs fun self => DesignatorPdu.initHeap self designatingEntityID codeName designatedEntityID designatorCode designatorPower designatorWavelength designatorSpotWrtDesignated designatorSpotLocation deadReckoningAlgorithm entityLinearAcceleration

/-- `DesignatorPdu.parse`, /repo/opendis/dis7.py:4739-4753, statement by statement. -/
def DesignatorPdu.parseHeap (self : Ref) : H Unit := do
  DistributedEmissionsFamilyPdu.parseHeap self
  H.call self "designatingEntityID" EntityIdentifier.parseHeap
  let codeName ← H.read read_unsigned_short
  H.setAttr self "codeName" (.sc (.int codeName))
  H.call self "designatedEntityID" EntityIdentifier.parseHeap
  let designatorCode ← H.read read_unsigned_short
  H.setAttr self "designatorCode" (.sc (.int designatorCode))
  let designatorPower ← H.read read_float
  H.setAttr self "designatorPower" (.sc (.float designatorPower))
  let designatorWavelength ← H.read read_float
  H.setAttr self "designatorWavelength" (.sc (.float designatorWavelength))
  H.call self "designatorSpotWrtDesignated" Vector3Float.parseHeap
  H.call self "designatorSpotLocation" WorldCoordinates.parseHeap
  let deadReckoningAlgorithm ← H.read read_byte
  H.setAttr self "deadReckoningAlgorithm" (.sc (.int deadReckoningAlgorithm))
  let padding1 ← H.read read_unsigned_short
  H.setAttr self "padding1" (.sc (.int padding1))
  let padding2 ← H.read read_byte
  H.setAttr self "padding2" (.sc (.int padding2))
  H.call self "entityLinearAcceleration" Vector3Float.parseHeap
  return ()

/-- `DesignatorPdu.serialize`, /repo/opendis/dis7.py:4723-4737, statement by statement. -/
def DesignatorPdu.serializeHeap (self : Ref) : S Unit := do
  DistributedEmissionsFamilyPdu.serializeHeap self
  S.call self "designatingEntityID" EntityIdentifier.serializeHeap
  S.putInt self "codeName" write_unsigned_short
  S.call self "designatedEntityID" EntityIdentifier.serializeHeap
  S.putInt self "designatorCode" write_unsigned_short
  S.putFloat self "designatorPower" write_float
  S.putFloat self "designatorWavelength" write_float
  S.call self "designatorSpotWrtDesignated" Vector3Float.serializeHeap
  S.call self "designatorSpotLocation" WorldCoordinates.serializeHeap
  S.putInt self "deadReckoningAlgorithm" write_byte
  S.putInt self "padding1" write_unsigned_short
  S.putInt self "padding2" write_byte
  S.call self "entityLinearAcceleration" Vector3Float.serializeHeap

/-- Attributes of a `StopFreezePdu` object before `__init__` (/repo/opendis/dis7.py:4756-4795): class attributes have
values. -/
def StopFreezePdu.attrs : List (String × Scalar) :=
  [("protocolVersion", .absent), ("exerciseID", .absent), ("pduType", .int 14),
   ("protocolFamily", .int 5), ("timestamp", .absent), ("length", .absent), ("pduStatus", .absent),
   ("padding", .absent), ("originatingEntityID", .absent), ("receivingEntityID", .absent),
   ("realWorldTime", .absent), ("reason", .absent), ("frozenBehavior", .absent),
   ("padding1", .absent), ("requestID", .absent)]

/-- `StopFreezePdu.__init__`, /repo/opendis/dis7.py:4763-4777, statement by statement. -/
def StopFreezePdu.initHeap (self : Ref) (realWorldTime : Val := .sc .none)
    (reason : Val := .sc (.int 0)) (frozenBehavior : Val := .sc (.int 0))
    (requestID : Val := .sc (.int 0)) : H Unit := do
  SimulationManagementFamilyPdu.initHeap self
  H.setOr self "realWorldTime" realWorldTime ClockTime.newHeap
  H.setAttr self "reason" reason
  H.setAttr self "frozenBehavior" frozenBehavior
  H.setAttr self "padding1" (.sc (.int 0))
  H.setAttr self "requestID" requestID

/-- `StopFreezePdu(...)`, /repo/opendis/dis7.py:4763-4777. -/
def StopFreezePdu.newHeap (realWorldTime : Val := .sc .none) (reason : Val := .sc (.int 0))
    (frozenBehavior : Val := .sc (.int 0)) (requestID : Val := .sc (.int 0)) : H Ref :=
  H.new StopFreezePdu.attrs fun self => StopFreezePdu.initHeap self realWorldTime reason frozenBehavior requestID

/-- `StopFreezePdu.parse`, /repo/opendis/dis7.py:4788-4795, statement by statement. -/
def StopFreezePdu.parseHeap (self : Ref) : H Unit := do
  SimulationManagementFamilyPdu.parseHeap self
  H.call self "realWorldTime" ClockTime.parseHeap
  let reason ← H.read read_unsigned_byte
  H.setAttr self "reason" (.sc (.int reason))
  let frozenBehavior ← H.read read_unsigned_byte
  H.setAttr self "frozenBehavior" (.sc (.int frozenBehavior))
  let padding1 ← H.read read_short
  H.setAttr self "padding1" (.sc (.int padding1))
  let requestID ← H.read read_unsigned_int
  H.setAttr self "requestID" (.sc (.int requestID))
  return ()

/-- `StopFreezePdu.serialize`, /repo/opendis/dis7.py:4779-4786, statement by statement. -/
def StopFreezePdu.serializeHeap (self : Ref) : S Unit := do
  SimulationManagementFamilyPdu.serializeHeap self
  S.call self "realWorldTime" ClockTime.serializeHeap
  S.putInt self "reason" write_unsigned_byte
  S.putInt self "frozenBehavior" write_unsigned_byte
  S.putInt self "padding1" write_short
  S.putInt self "requestID" write_unsigned_int

/-- Attributes of a `EntityStatePdu` object before `__init__` (/repo/opendis/dis7.py:4798-4887): class attributes have
values. -/
def EntityStatePdu.attrs : List (String × Scalar) :=
  [("protocolVersion", .absent), ("exerciseID", .absent), ("pduType", .int 1),
   ("protocolFamily", .int 1), ("timestamp", .absent), ("length", .absent), ("pduStatus", .absent),
   ("padding", .absent), ("entityID", .absent), ("forceId", .absent), ("entityType", .absent),
   ("alternativeEntityType", .absent), ("entityLinearVelocity", .absent),
   ("entityLocation", .absent), ("entityOrientation", .absent), ("entityAppearance", .absent),
   ("deadReckoningParameters", .absent), ("marking", .absent), ("capabilities", .absent),
   ("variableParameters", .absent)]

/-- `EntityStatePdu.__init__`, /repo/opendis/dis7.py:4805-4842, statement by statement. -/
def EntityStatePdu.initHeap (self : Ref) (entityID : Val := .sc .none)
    (forceId : Val := .sc (.int 0)) (entityType : Val := .sc .none)
    (alternativeEntityType : Val := .sc .none) (entityLinearVelocity : Val := .sc .none)
    (entityLocation : Val := .sc .none) (entityOrientation : Val := .sc .none)
    (entityAppearance : Val := .sc (.int 0)) (deadReckoningParameters : Val := .sc .none)
    (marking : Val := .sc .none) (capabilities : Val := .sc (.int 0))
    (variableParameters : Val := .sc .none) : H Unit := do
  EntityInformationFamilyPdu.initHeap self
  H.setOr self "entityID" entityID EntityIdentifier.newHeap
  H.setAttr self "forceId" forceId
  H.setOr self "entityType" entityType EntityType.newHeap
  H.setOr self "alternativeEntityType" alternativeEntityType EntityType.newHeap
  H.setOr self "entityLinearVelocity" entityLinearVelocity Vector3Float.newHeap
  H.setOr self "entityLocation" entityLocation WorldCoordinates.newHeap
  H.setOr self "entityOrientation" entityOrientation EulerAngles.newHeap
  H.setAttr self "entityAppearance" entityAppearance
  H.setOr self "deadReckoningParameters" deadReckoningParameters DeadReckoningParameters.newHeap
  H.setOr self "marking" marking EntityMarking.newHeap
  H.setAttr self "capabilities" capabilities
  H.setOr self "variableParameters" variableParameters (H.alloc (.list []))

/-- `EntityStatePdu(...)`, /repo/opendis/dis7.py:4805-4842. -/
def EntityStatePdu.newHeap (entityID : Val := .sc .none) (forceId : Val := .sc (.int 0))
    (entityType : Val := .sc .none) (alternativeEntityType : Val := .sc .none)
    (entityLinearVelocity : Val := .sc .none) (entityLocation : Val := .sc .none)
    (entityOrientation : Val := .sc .none) (entityAppearance : Val := .sc (.int 0))
    (deadReckoningParameters : Val := .sc .none) (marking : Val := .sc .none)
    (capabilities : Val := .sc (.int 0)) (variableParameters : Val := .sc .none) : H Ref :=
  H.new EntityStatePdu.attrs fun self => EntityStatePdu.initHeap self entityID forceId entityType alternativeEntityType entityLinearVelocity entityLocation entityOrientation entityAppearance deadReckoningParameters marking capabilities variableParameters

/-- `EntityStatePdu.parse`, /repo/opendis/dis7.py:4869-4887, statement by statement. -/
def EntityStatePdu.parseHeap (self : Ref) : H Unit := do
  EntityInformationFamilyPdu.parseHeap self
  H.call self "entityID" EntityIdentifier.parseHeap
  let forceId ← H.read read_unsigned_byte
  H.setAttr self "forceId" (.sc (.int forceId))
  let numberOfVariableParameters ← H.read read_unsigned_byte
  H.call self "entityType" EntityType.parseHeap
  H.call self "alternativeEntityType" EntityType.parseHeap
  H.call self "entityLinearVelocity" Vector3Float.parseHeap
  H.call self "entityLocation" WorldCoordinates.parseHeap
  H.call self "entityOrientation" EulerAngles.parseHeap
  let entityAppearance ← H.read read_unsigned_int
  H.setAttr self "entityAppearance" (.sc (.int entityAppearance))
  H.call self "deadReckoningParameters" DeadReckoningParameters.parseHeap
  H.call self "marking" EntityMarking.parseHeap
  let capabilities ← H.read read_unsigned_int
  H.setAttr self "capabilities" (.sc (.int capabilities))
  H.appendObjs numberOfVariableParameters.toNat VariableParameter.newHeap VariableParameter.parseHeap self "variableParameters"
  return ()

/-- `EntityStatePdu.serialize`, /repo/opendis/dis7.py:4851-4867, statement by statement. -/
def EntityStatePdu.serializeHeap (self : Ref) : S Unit := do
  EntityInformationFamilyPdu.serializeHeap self
  S.call self "entityID" EntityIdentifier.serializeHeap
  S.putInt self "forceId" write_unsigned_byte
  S.putLen self "variableParameters" write_unsigned_byte
  S.call self "entityType" EntityType.serializeHeap
  S.call self "alternativeEntityType" EntityType.serializeHeap
  S.call self "entityLinearVelocity" Vector3Float.serializeHeap
  S.call self "entityLocation" WorldCoordinates.serializeHeap
  S.call self "entityOrientation" EulerAngles.serializeHeap
  S.putInt self "entityAppearance" write_unsigned_int
  S.call self "deadReckoningParameters" DeadReckoningParameters.serializeHeap
  S.call self "marking" EntityMarking.serializeHeap
  S.putInt self "capabilities" write_unsigned_int
  S.each self "variableParameters" VariableParameter.serializeHeap

/-- `EntityManagementFamilyPdu.__init__`, /repo/opendis/dis7.py:4897-4898, statement by statement. -/
def EntityManagementFamilyPdu.initHeap (self : Ref) : H Unit := do
  Pdu.initHeap self

/-- `EntityManagementFamilyPdu.parse`, /repo/opendis/dis7.py:4904-4906, statement by statement. -/
def EntityManagementFamilyPdu.parseHeap (self : Ref) : H Unit := do
  Pdu.parseHeap self
  return ()

/-- `EntityManagementFamilyPdu.serialize`, /repo/opendis/dis7.py:4900-4902, statement by statement. -/
def EntityManagementFamilyPdu.serializeHeap (self : Ref) : S Unit := do
  Pdu.serializeHeap self

/-- Attributes of a `StartResumePdu` object before `__init__` (/repo/opendis/dis7.py:4909-4940): class attributes have
values. -/
def StartResumePdu.attrs : List (String × Scalar) :=
  [("protocolVersion", .absent), ("exerciseID", .absent), ("pduType", .int 13),
   ("protocolFamily", .int 5), ("timestamp", .absent), ("length", .absent), ("pduStatus", .absent),
   ("padding", .absent), ("originatingEntityID", .absent), ("receivingEntityID", .absent),
   ("realWorldTime", .absent), ("simulationTime", .absent), ("requestID", .absent)]

/-- `StartResumePdu.__init__`, /repo/opendis/dis7.py:4916-4926, statement by statement. -/
def StartResumePdu.initHeap (self : Ref) (realWorldTime : Val := .sc .none)
    (simulationTime : Val := .sc .none) (requestID : Val := .sc (.int 0)) : H Unit := do
  SimulationManagementFamilyPdu.initHeap self
  H.setOr self "realWorldTime" realWorldTime ClockTime.newHeap
  H.setOr self "simulationTime" simulationTime ClockTime.newHeap
  H.setAttr self "requestID" requestID

/-- `StartResumePdu(...)`, /repo/opendis/dis7.py:4916-4926. -/
def StartResumePdu.newHeap (realWorldTime : Val := .sc .none)
    (simulationTime : Val := .sc .none) (requestID : Val := .sc (.int 0)) : H Ref :=
  H.new StartResumePdu.attrs fun self => StartResumePdu.initHeap self realWorldTime simulationTime requestID

/-- `StartResumePdu.parse`, /repo/opendis/dis7.py:4935-4940, statement by statement. -/
def StartResumePdu.parseHeap (self : Ref) : H Unit := do
  SimulationManagementFamilyPdu.parseHeap self
  H.call self "realWorldTime" ClockTime.parseHeap
  H.call self "simulationTime" ClockTime.parseHeap
  let requestID ← H.read read_unsigned_int
  H.setAttr self "requestID" (.sc (.int requestID))
  return ()

/-- `StartResumePdu.serialize`, /repo/opendis/dis7.py:4928-4933, statement by statement. -/
def StartResumePdu.serializeHeap (self : Ref) : S Unit := do
  SimulationManagementFamilyPdu.serializeHeap self
  S.call self "realWorldTime" ClockTime.serializeHeap
  S.call self "simulationTime" ClockTime.serializeHeap
  S.putInt self "requestID" write_unsigned_int

/-- Attributes of a `ElectromagneticEmissionsPdu` object before `__init__` (/repo/opendis/dis7.py:5119-5169): class attributes have
values. -/
def ElectromagneticEmissionsPdu.attrs : List (String × Scalar) :=
  [("protocolVersion", .absent), ("exerciseID", .absent), ("pduType", .int 23),
   ("protocolFamily", .int 6), ("timestamp", .absent), ("length", .absent), ("pduStatus", .absent),
   ("padding", .absent), ("emittingEntityID", .absent), ("eventID", .absent),
   ("stateUpdateIndicator", .absent), ("systems", .absent), ("paddingForEmissionsPdu", .absent)]

/-- `ElectromagneticEmissionsPdu.__init__`, /repo/opendis/dis7.py:5127-5140, statement by statement. -/
def ElectromagneticEmissionsPdu.initHeap (self : Ref) (emittingEntityID : Val := .sc .none)
    (eventID : Val := .sc .none) (stateUpdateIndicator : Val := .sc (.int 0))
    (systems : Val := .sc .none) : H Unit := do
  DistributedEmissionsFamilyPdu.initHeap self
  H.setOr self "emittingEntityID" emittingEntityID EntityIdentifier.newHeap
  H.setOr self "eventID" eventID EventIdentifier.newHeap
  H.setAttr self "stateUpdateIndicator" stateUpdateIndicator
  H.setOr self "systems" systems (H.alloc (.list []))
  H.setAttr self "paddingForEmissionsPdu" (.sc (.int 0))

/-- `ElectromagneticEmissionsPdu(...)`, /repo/opendis/dis7.py:5127-5140. -/
def ElectromagneticEmissionsPdu.newHeap (emittingEntityID : Val := .sc .none)
    (eventID : Val := .sc .none) (stateUpdateIndicator : Val := .sc (.int 0))
    (systems : Val := .sc .none) : H Ref :=
  H.new ElectromagneticEmissionsPdu.attrs fun self => ElectromagneticEmissionsPdu.initHeap self emittingEntityID eventID stateUpdateIndicator systems

/-- `ElectromagneticEmissionsPdu.parse`, /repo/opendis/dis7.py:5157-5169, statement by statement. -/
def ElectromagneticEmissionsPdu.parseHeap (self : Ref) : H Unit := do
  DistributedEmissionsFamilyPdu.parseHeap self
  H.call self "emittingEntityID" EntityIdentifier.parseHeap
  H.call self "eventID" EventIdentifier.parseHeap
  let stateUpdateIndicator ← H.read read_unsigned_byte
  H.setAttr self "stateUpdateIndicator" (.sc (.int stateUpdateIndicator))
  let numberOfSystems ← H.read read_unsigned_byte
  let paddingForEmissionsPdu ← H.read read_unsigned_short
  H.setAttr self "paddingForEmissionsPdu" (.sc (.int paddingForEmissionsPdu))
  H.appendObjs numberOfSystems.toNat EmissionSystemRecord.newHeap EmissionSystemRecord.parseHeap self "systems"
  return ()

/-- `ElectromagneticEmissionsPdu.serialize`, /repo/opendis/dis7.py:5146-5155, statement by statement. -/
def ElectromagneticEmissionsPdu.serializeHeap (self : Ref) : S Unit := do
  DistributedEmissionsFamilyPdu.serializeHeap self
  S.call self "emittingEntityID" EntityIdentifier.serializeHeap
  S.call self "eventID" EventIdentifier.serializeHeap
  S.putInt self "stateUpdateIndicator" write_unsigned_byte
  S.putLen self "systems" write_unsigned_byte
  S.putInt self "paddingForEmissionsPdu" write_unsigned_short
  S.each self "systems" EmissionSystemRecord.serializeHeap

/-- Attributes of a `ResupplyOfferPdu` object before `__init__` (/repo/opendis/dis7.py:5279-5327): class attributes have
values. -/
def ResupplyOfferPdu.attrs : List (String × Scalar) :=
  [("protocolVersion", .absent), ("exerciseID", .absent), ("pduType", .int 6),
   ("protocolFamily", .int 3), ("timestamp", .absent), ("length", .absent), ("pduStatus", .absent),
   ("padding", .absent), ("receivingEntityID", .absent), ("supplyingEntityID", .absent),
   ("padding1", .absent), ("padding2", .absent), ("supplies", .absent)]

/-- `ResupplyOfferPdu.__init__`, /repo/opendis/dis7.py:5287-5299, statement by statement. -/
def ResupplyOfferPdu.initHeap (self : Ref) (receivingEntityID : Val := .sc .none)
    (supplyingEntityID : Val := .sc .none) (supplies : Val := .sc .none) : H Unit := do
  LogisticsFamilyPdu.initHeap self
  H.setOr self "receivingEntityID" receivingEntityID EntityIdentifier.newHeap
  H.setOr self "supplyingEntityID" supplyingEntityID EntityIdentifier.newHeap
  H.setAttr self "padding1" (.sc (.int 0))
  H.setAttr self "padding2" (.sc (.int 0))
  H.setOr self "supplies" supplies (H.alloc (.list []))

/-- `ResupplyOfferPdu(...)`, /repo/opendis/dis7.py:5287-5299. -/
def ResupplyOfferPdu.newHeap (receivingEntityID : Val := .sc .none)
    (supplyingEntityID : Val := .sc .none) (supplies : Val := .sc .none) : H Ref :=
  H.new ResupplyOfferPdu.attrs fun self => ResupplyOfferPdu.initHeap self receivingEntityID supplyingEntityID supplies

/-- `ResupplyOfferPdu.parse`, /repo/opendis/dis7.py:5316-5327, statement by statement. -/
def ResupplyOfferPdu.parseHeap (self : Ref) : H Unit := do
  LogisticsFamilyPdu.parseHeap self
  H.call self "receivingEntityID" EntityIdentifier.parseHeap
  H.call self "supplyingEntityID" EntityIdentifier.parseHeap
  let numberOfSupplyTypes ← H.read read_unsigned_byte
  let padding1 ← H.read read_byte
  H.setAttr self "padding1" (.sc (.int padding1))
  let padding2 ← H.read read_short
  H.setAttr self "padding2" (.sc (.int padding2))
  H.appendObjs numberOfSupplyTypes.toNat SupplyQuantity.newHeap SupplyQuantity.parseHeap self "supplies"
  return ()

/-- `ResupplyOfferPdu.serialize`, /repo/opendis/dis7.py:5305-5314, statement by statement. -/
def ResupplyOfferPdu.serializeHeap (self : Ref) : S Unit := do
  LogisticsFamilyPdu.serializeHeap self
  S.call self "receivingEntityID" EntityIdentifier.serializeHeap
  S.call self "supplyingEntityID" EntityIdentifier.serializeHeap
  S.putLen self "supplies" write_unsigned_byte
  S.putInt self "padding1" write_byte
  S.putInt self "padding2" write_short
  S.each self "supplies" SupplyQuantity.serializeHeap

/-- Attributes of a `AttributePdu` object before `__init__` (/repo/opendis/dis7.py:5330-5391): class attributes have
values. -/
def AttributePdu.attrs : List (String × Scalar) :=
  [("protocolVersion", .absent), ("exerciseID", .absent), ("pduType", .absent),
   ("protocolFamily", .int 1), ("timestamp", .absent), ("length", .absent), ("pduStatus", .absent),
   ("padding", .absent), ("originatingSimulationAddress", .absent), ("padding1", .absent),
   ("padding2", .absent), ("attributeRecordPduType", .absent),
   ("attributeRecordProtocolVersion", .absent), ("masterAttributeRecordType", .absent),
   ("actionCode", .absent), ("padding3", .absent), ("numberOfAttributeRecordSets", .absent)]

/-- `AttributePdu.parse`, /repo/opendis/dis7.py:5380-5391, statement by statement. -/
def AttributePdu.parseHeap (self : Ref) : H Unit := do
  EntityInformationFamilyPdu.parseHeap self
  H.call self "originatingSimulationAddress" SimulationAddress.parseHeap
  let padding1 ← H.read read_int
  H.setAttr self "padding1" (.sc (.int padding1))
  let padding2 ← H.read read_short
  H.setAttr self "padding2" (.sc (.int padding2))
  let attributeRecordPduType ← H.read read_unsigned_byte
  H.setAttr self "attributeRecordPduType" (.sc (.int attributeRecordPduType))
  let attributeRecordProtocolVersion ← H.read read_unsigned_byte
  H.setAttr self "attributeRecordProtocolVersion" (.sc (.int attributeRecordProtocolVersion))
  let masterAttributeRecordType ← H.read read_unsigned_int
  H.setAttr self "masterAttributeRecordType" (.sc (.int masterAttributeRecordType))
  let actionCode ← H.read read_unsigned_byte
  H.setAttr self "actionCode" (.sc (.int actionCode))
  let padding3 ← H.read read_byte
  H.setAttr self "padding3" (.sc (.int padding3))
  let numberOfAttributeRecordSets ← H.read read_unsigned_short
  H.setAttr self "numberOfAttributeRecordSets" (.sc (.int numberOfAttributeRecordSets))
  return ()

/-- `AttributePdu.serialize`, /repo/opendis/dis7.py:5367-5378, statement by statement. -/
def AttributePdu.serializeHeap (self : Ref) : S Unit := do
  EntityInformationFamilyPdu.serializeHeap self
  S.call self "originatingSimulationAddress" SimulationAddress.serializeHeap
  S.putInt self "padding1" write_int
  S.putInt self "padding2" write_short
  S.putInt self "attributeRecordPduType" write_unsigned_byte
  S.putInt self "attributeRecordProtocolVersion" write_unsigned_byte
  S.putInt self "masterAttributeRecordType" write_unsigned_int
  S.putInt self "actionCode" write_unsigned_byte
  S.putInt self "padding3" write_byte
  S.putInt self "numberOfAttributeRecordSets" write_unsigned_short

/-- `MinefieldFamilyPdu.__init__`, /repo/opendis/dis7.py:5400-5402, statement by statement. -/
def MinefieldFamilyPdu.initHeap (self : Ref) : H Unit := do
  Pdu.initHeap self

/-- `MinefieldFamilyPdu.parse`, /repo/opendis/dis7.py:5408-5410, statement by statement. -/
def MinefieldFamilyPdu.parseHeap (self : Ref) : H Unit := do
  Pdu.parseHeap self
  return ()

/-- `MinefieldFamilyPdu.serialize`, /repo/opendis/dis7.py:5404-5406, statement by statement. -/
def MinefieldFamilyPdu.serializeHeap (self : Ref) : S Unit := do
  Pdu.serializeHeap self

/-- Attributes of a `SetDataReliablePdu` object before `__init__` (/repo/opendis/dis7.py:5413-5468): class attributes have
values. -/
def SetDataReliablePdu.attrs : List (String × Scalar) :=
  [("protocolVersion", .absent), ("exerciseID", .absent), ("pduType", .int 59),
   ("protocolFamily", .int 10), ("timestamp", .absent), ("length", .absent), ("pduStatus", .absent),
   ("padding", .absent), ("originatingEntityID", .absent), ("receivingEntityID", .absent),
   ("requiredReliabilityService", .absent), ("pad1", .absent), ("pad2", .absent),
   ("requestID", .absent), ("_datums", .absent)]

/-- `SetDataReliablePdu.__init__`, /repo/opendis/dis7.py:5421-5434, statement by statement. -/
def SetDataReliablePdu.initHeap (self : Ref) (requiredReliabilityService : Val := .sc (.int 0))
    (requestID : Val := .sc (.int 0)) (fixedDatumRecords : Val := .sc .none)
    (variableDatumRecords : Val := .sc .none) : H Unit := do
  SimulationManagementWithReliabilityFamilyPdu.initHeap self
  H.setAttr self "requiredReliabilityService" requiredReliabilityService
  H.setAttr self "pad1" (.sc (.int 0))
  H.setAttr self "pad2" (.sc (.int 0))
  H.setAttr self "requestID" requestID
  H.setNew self "_datums" (do
      let fixedDatumRecords ← H.orNew fixedDatumRecords (H.alloc (.list []))
      let variableDatumRecords ← H.orNew variableDatumRecords (H.alloc (.list []))
      DatumSpecification.newHeap fixedDatumRecords variableDatumRecords)

/-- `SetDataReliablePdu(...)`, /repo/opendis/dis7.py:5421-5434. -/
def SetDataReliablePdu.newHeap (requiredReliabilityService : Val := .sc (.int 0))
    (requestID : Val := .sc (.int 0)) (fixedDatumRecords : Val := .sc .none)
    (variableDatumRecords : Val := .sc .none) : H Ref :=
  H.new SetDataReliablePdu.attrs fun self => SetDataReliablePdu.initHeap self requiredReliabilityService requestID fixedDatumRecords variableDatumRecords

/-- `SetDataReliablePdu.parse`, /repo/opendis/dis7.py:5461-5468, statement by statement. -/
def SetDataReliablePdu.parseHeap (self : Ref) : H Unit := do
  SimulationManagementWithReliabilityFamilyPdu.parseHeap self
  let requiredReliabilityService ← H.read read_unsigned_byte
  H.setAttr self "requiredReliabilityService" (.sc (.int requiredReliabilityService))
  let pad1 ← H.read read_unsigned_short
  H.setAttr self "pad1" (.sc (.int pad1))
  let pad2 ← H.read read_unsigned_byte
  H.setAttr self "pad2" (.sc (.int pad2))
  let requestID ← H.read read_unsigned_int
  H.setAttr self "requestID" (.sc (.int requestID))
  H.call self "_datums" DatumSpecification.parseHeap
  return ()

/-- `SetDataReliablePdu.serialize`, /repo/opendis/dis7.py:5452-5459, statement by statement. -/
def SetDataReliablePdu.serializeHeap (self : Ref) : S Unit := do
  SimulationManagementWithReliabilityFamilyPdu.serializeHeap self
  S.putInt self "requiredReliabilityService" write_unsigned_byte
  S.putInt self "pad1" write_unsigned_short
  S.putInt self "pad2" write_unsigned_byte
  S.putInt self "requestID" write_unsigned_int
  S.call self "_datums" DatumSpecification.serializeHeap

/-- Attributes of a `EventReportPdu` object before `__init__` (/repo/opendis/dis7.py:5471-5502): class attributes have
values. -/
def EventReportPdu.attrs : List (String × Scalar) :=
  [("protocolVersion", .absent), ("exerciseID", .absent), ("pduType", .int 21),
   ("protocolFamily", .int 5), ("timestamp", .absent), ("length", .absent), ("pduStatus", .absent),
   ("padding", .absent), ("originatingEntityID", .absent), ("receivingEntityID", .absent),
   ("eventType", .absent), ("padding1", .absent), ("_datums", .absent)]

/-- `EventReportPdu.__init__`, /repo/opendis/dis7.py:5479-5488, statement by statement. -/
def EventReportPdu.initHeap (self : Ref) (eventType : Val := .sc (.int 0))
    (fixedDatumRecords : Val := .sc .none) (variableDatumRecords : Val := .sc .none) : H Unit := do
  SimulationManagementFamilyPdu.initHeap self
  H.setAttr self "eventType" eventType
  H.setAttr self "padding1" (.sc (.int 0))
  H.setNew self "_datums" (do
      let fixedDatumRecords ← H.orNew fixedDatumRecords (H.alloc (.list []))
      let variableDatumRecords ← H.orNew variableDatumRecords (H.alloc (.list []))
      DatumSpecification.newHeap fixedDatumRecords variableDatumRecords)

/-- `EventReportPdu(...)`, /repo/opendis/dis7.py:5479-5488. -/
def EventReportPdu.newHeap (eventType : Val := .sc (.int 0))
    (fixedDatumRecords : Val := .sc .none) (variableDatumRecords : Val := .sc .none) : H Ref :=
  H.new EventReportPdu.attrs fun self => EventReportPdu.initHeap self eventType fixedDatumRecords variableDatumRecords

/-- `EventReportPdu.parse`, /repo/opendis/dis7.py:5497-5502, statement by statement. -/
def EventReportPdu.parseHeap (self : Ref) : H Unit := do
  SimulationManagementFamilyPdu.parseHeap self
  let eventType ← H.read read_unsigned_int
  H.setAttr self "eventType" (.sc (.int eventType))
  let padding1 ← H.read read_unsigned_int
  H.setAttr self "padding1" (.sc (.int padding1))
  H.call self "_datums" DatumSpecification.parseHeap
  return ()

/-- `EventReportPdu.serialize`, /repo/opendis/dis7.py:5490-5495, statement by statement. -/
def EventReportPdu.serializeHeap (self : Ref) : S Unit := do
  SimulationManagementFamilyPdu.serializeHeap self
  S.putInt self "eventType" write_unsigned_int
  S.putInt self "padding1" write_unsigned_int
  S.call self "_datums" DatumSpecification.serializeHeap

/-- Attributes of a `PointObjectStatePdu` object before `__init__` (/repo/opendis/dis7.py:5505-5582): class attributes have
values. -/
def PointObjectStatePdu.attrs : List (String × Scalar) :=
  [("protocolVersion", .absent), ("exerciseID", .absent), ("pduType", .int 43),
   ("protocolFamily", .int 9), ("timestamp", .absent), ("length", .absent), ("pduStatus", .absent),
   ("padding", .absent), ("objectID", .absent), ("referencedObjectID", .absent),
   ("updateNumber", .absent), ("forceID", .absent), ("modifications", .absent),
   ("objectType", .absent), ("objectLocation", .absent), ("objectOrientation", .absent),
   ("objectAppearance", .absent), ("pad1", .absent), ("requesterID", .absent),
   ("receivingID", .absent), ("pad2", .absent)]

/-- `PointObjectStatePdu.__init__`, /repo/opendis/dis7.py:5513-5550, statement by statement. -/
def PointObjectStatePdu.initHeap (self : Ref) (objectID : Val := .sc .none)
    (referencedObjectID : Val := .sc .none) (updateNumber : Val := .sc (.int 0))
    (forceID : Val := .sc (.int 0)) (modifications : Val := .sc (.int 0))
    (objectType : Val := .sc .none) (objectLocation : Val := .sc .none)
    (objectOrientation : Val := .sc .none)
    (objectAppearance : Val := .sc (.float 0x0000000000000000)) (requesterID : Val := .sc .none)
    (receivingID : Val := .sc .none) : H Unit := do
  SyntheticEnvironmentFamilyPdu.initHeap self
  H.setOr self "objectID" objectID EntityIdentifier.newHeap
  H.setOr self "referencedObjectID" referencedObjectID EntityIdentifier.newHeap
  H.setAttr self "updateNumber" updateNumber
  H.setAttr self "forceID" forceID
  H.setAttr self "modifications" modifications
  H.setOr self "objectType" objectType ObjectType.newHeap
  H.setOr self "objectLocation" objectLocation WorldCoordinates.newHeap
  H.setOr self "objectOrientation" objectOrientation EulerAngles.newHeap
  H.setAttr self "objectAppearance" objectAppearance
  H.setAttr self "pad1" (.sc (.int 0))
  H.setOr self "requesterID" requesterID SimulationAddress.newHeap
  H.setOr self "receivingID" receivingID SimulationAddress.newHeap
  H.setAttr self "pad2" (.sc (.int 0))

/-- `PointObjectStatePdu(...)`, /repo/opendis/dis7.py:5513-5550. -/
def PointObjectStatePdu.newHeap (objectID : Val := .sc .none)
    (referencedObjectID : Val := .sc .none) (updateNumber : Val := .sc (.int 0))
    (forceID : Val := .sc (.int 0)) (modifications : Val := .sc (.int 0))
    (objectType : Val := .sc .none) (objectLocation : Val := .sc .none)
    (objectOrientation : Val := .sc .none)
    (objectAppearance : Val := .sc (.float 0x0000000000000000)) (requesterID : Val := .sc .none)
    (receivingID : Val := .sc .none) : H Ref :=
  H.new PointObjectStatePdu.attrs fun self => PointObjectStatePdu.initHeap self objectID referencedObjectID updateNumber forceID modifications objectType objectLocation objectOrientation objectAppearance requesterID receivingID

/-- `PointObjectStatePdu.parse`, /repo/opendis/dis7.py:5568-5582, statement by statement. -/
def PointObjectStatePdu.parseHeap (self : Ref) : H Unit := do
  SyntheticEnvironmentFamilyPdu.parseHeap self
  H.call self "objectID" EntityIdentifier.parseHeap
  H.call self "referencedObjectID" EntityIdentifier.parseHeap
  let updateNumber ← H.read read_unsigned_short
  H.setAttr self "updateNumber" (.sc (.int updateNumber))
  let forceID ← H.read read_unsigned_byte
  H.setAttr self "forceID" (.sc (.int forceID))
  let modifications ← H.read read_unsigned_byte
  H.setAttr self "modifications" (.sc (.int modifications))
  H.call self "objectType" ObjectType.parseHeap
  H.call self "objectLocation" WorldCoordinates.parseHeap
  H.call self "objectOrientation" EulerAngles.parseHeap
  let objectAppearance ← H.read read_double
  H.setAttr self "objectAppearance" (.sc (.float objectAppearance))
  H.call self "requesterID" SimulationAddress.parseHeap
  H.call self "receivingID" SimulationAddress.parseHeap
  let pad2 ← H.read read_unsigned_int
  H.setAttr self "pad2" (.sc (.int pad2))
  return ()

/-- `PointObjectStatePdu.serialize`, /repo/opendis/dis7.py:5552-5566, statement by statement. -/
def PointObjectStatePdu.serializeHeap (self : Ref) : S Unit := do
  SyntheticEnvironmentFamilyPdu.serializeHeap self
  S.call self "objectID" EntityIdentifier.serializeHeap
  S.call self "referencedObjectID" EntityIdentifier.serializeHeap
  S.putInt self "updateNumber" write_unsigned_short
  S.putInt self "forceID" write_unsigned_byte
  S.putInt self "modifications" write_unsigned_byte
  S.call self "objectType" ObjectType.serializeHeap
  S.call self "objectLocation" WorldCoordinates.serializeHeap
  S.call self "objectOrientation" EulerAngles.serializeHeap
  S.putFloat self "objectAppearance" write_double
  S.call self "requesterID" SimulationAddress.serializeHeap
  S.call self "receivingID" SimulationAddress.serializeHeap
  S.putInt self "pad2" write_unsigned_int

/-- Attributes of a `DataPdu` object before `__init__` (/repo/opendis/dis7.py:5585-5634): class attributes have
values. -/
def DataPdu.attrs : List (String × Scalar) :=
  [("protocolVersion", .absent), ("exerciseID", .absent), ("pduType", .int 20),
   ("protocolFamily", .int 5), ("timestamp", .absent), ("length", .absent), ("pduStatus", .absent),
   ("padding", .absent), ("originatingEntityID", .absent), ("receivingEntityID", .absent),
   ("requestID", .absent), ("padding1", .absent), ("_datums", .absent)]

/-- `DataPdu.__init__`, /repo/opendis/dis7.py:5593-5603, statement by statement. -/
def DataPdu.initHeap (self : Ref) (requestID : Val := .sc (.int 0))
    (fixedDatumRecords : Val := .sc .none) (variableDatumRecords : Val := .sc .none) : H Unit := do
  SimulationManagementFamilyPdu.initHeap self
  H.setAttr self "requestID" requestID
  H.setAttr self "padding1" (.sc (.int 0))
  H.setNew self "_datums" (do
      let fixedDatumRecords ← H.orNew fixedDatumRecords (H.alloc (.list []))
      let variableDatumRecords ← H.orNew variableDatumRecords (H.alloc (.list []))
      DatumSpecification.newHeap fixedDatumRecords variableDatumRecords)

/-- `DataPdu(...)`, /repo/opendis/dis7.py:5593-5603. -/
def DataPdu.newHeap (requestID : Val := .sc (.int 0)) (fixedDatumRecords : Val := .sc .none)
    (variableDatumRecords : Val := .sc .none) : H Ref :=
  H.new DataPdu.attrs fun self => DataPdu.initHeap self requestID fixedDatumRecords variableDatumRecords

/-- `DataPdu.parse`, /repo/opendis/dis7.py:5628-5634, statement by statement. -/
def DataPdu.parseHeap (self : Ref) : H Unit := do
  SimulationManagementFamilyPdu.parseHeap self
  let requestID ← H.read read_unsigned_int
  H.setAttr self "requestID" (.sc (.int requestID))
  let padding1 ← H.read read_unsigned_int
  H.setAttr self "padding1" (.sc (.int padding1))
  H.call self "_datums" DatumSpecification.parseHeap
  return ()

/-- `DataPdu.serialize`, /repo/opendis/dis7.py:5621-5626, statement by statement. -/
def DataPdu.serializeHeap (self : Ref) : S Unit := do
  SimulationManagementFamilyPdu.serializeHeap self
  S.putInt self "requestID" write_unsigned_int
  S.putInt self "padding1" write_unsigned_int
  S.call self "_datums" DatumSpecification.serializeHeap

/-- Attributes of a `FastEntityStatePdu` object before `__init__` (/repo/opendis/dis7.py:5637-5868): class attributes have
values. -/
def FastEntityStatePdu.attrs : List (String × Scalar) :=
  [("protocolVersion", .absent), ("exerciseID", .absent), ("pduType", .int 1),
   ("protocolFamily", .int 1), ("timestamp", .absent), ("length", .absent), ("pduStatus", .absent),
   ("padding", .absent), ("site", .absent), ("application", .absent), ("entity", .absent),
   ("forceId", .absent), ("numberOfVariableParameters", .absent), ("entityKind", .absent),
   ("domain", .absent), ("country", .absent), ("category", .absent), ("subcategory", .absent),
   ("specific", .absent), ("extra", .absent), ("altEntityKind", .absent), ("altDomain", .absent),
   ("altCountry", .absent), ("altCategory", .absent), ("altSubcategory", .absent),
   ("altSpecific", .absent), ("altExtra", .absent), ("xVelocity", .absent), ("yVelocity", .absent),
   ("zVelocity", .absent), ("xLocation", .absent), ("yLocation", .absent), ("zLocation", .absent),
   ("psi", .absent), ("theta", .absent), ("phi", .absent), ("entityAppearance", .absent),
   ("deadReckoningAlgorithm", .absent), ("otherParameters", .absent), ("xAcceleration", .absent),
   ("yAcceleration", .absent), ("zAcceleration", .absent), ("xAngularVelocity", .absent),
   ("yAngularVelocity", .absent), ("zAngularVelocity", .absent), ("marking", .absent),
   ("capabilities", .absent), ("variableParameters", .absent)]

/-- `FastEntityStatePdu.__init__`, /repo/opendis/dis7.py:5646-5762, statement by statement. -/
def FastEntityStatePdu.initHeap (self : Ref) (site : Val := .sc (.int 0))
    (application : Val := .sc (.int 0)) (entity : Val := .sc (.int 0))
    (forceId : Val := .sc (.int 0)) (numberOfVariableParameters : Val := .sc (.int 0))
    (entityKind : Val := .sc (.int 0)) (domain : Val := .sc (.int 0))
    (country : Val := .sc (.int 0)) (category : Val := .sc (.int 0))
    (subcategory : Val := .sc (.int 0)) (specific : Val := .sc (.int 0))
    (extra : Val := .sc (.int 0)) (altEntityKind : Val := .sc (.int 0))
    (altDomain : Val := .sc (.int 0)) (altCountry : Val := .sc (.int 0))
    (altCategory : Val := .sc (.int 0)) (altSubcategory : Val := .sc (.int 0))
    (altSpecific : Val := .sc (.int 0)) (altExtra : Val := .sc (.int 0))
    (xVelocity : Val := .sc (.float 0x0000000000000000))
    (yVelocity : Val := .sc (.float 0x0000000000000000))
    (zVelocity : Val := .sc (.float 0x0000000000000000))
    (xLocation : Val := .sc (.float 0x0000000000000000))
    (yLocation : Val := .sc (.float 0x0000000000000000))
    (zLocation : Val := .sc (.float 0x0000000000000000))
    (psi : Val := .sc (.float 0x0000000000000000))
    (theta : Val := .sc (.float 0x0000000000000000))
    (phi : Val := .sc (.float 0x0000000000000000)) (entityAppearance : Val := .sc (.int 0))
    (deadReckoningAlgorithm : Val := .sc (.int 0)) (otherParameters : Val := .sc .none)
    (xAcceleration : Val := .sc (.float 0x0000000000000000))
    (yAcceleration : Val := .sc (.float 0x0000000000000000))
    (zAcceleration : Val := .sc (.float 0x0000000000000000))
    (xAngularVelocity : Val := .sc (.float 0x0000000000000000))
    (yAngularVelocity : Val := .sc (.float 0x0000000000000000))
    (zAngularVelocity : Val := .sc (.float 0x0000000000000000)) (marking : Val := .sc .none)
    (capabilities : Val := .sc (.int 0)) (variableParameters : Val := .sc .none) : H Unit := do
  EntityInformationFamilyPdu.initHeap self
  H.setAttr self "site" site
  H.setAttr self "application" application
  H.setAttr self "entity" entity
  H.setAttr self "forceId" forceId
  H.setAttr self "numberOfVariableParameters" numberOfVariableParameters
  H.setAttr self "entityKind" entityKind
  H.setAttr self "domain" domain
  H.setAttr self "country" country
  H.setAttr self "category" category
  H.setAttr self "subcategory" subcategory
  H.setAttr self "specific" specific
  H.setAttr self "extra" extra
  H.setAttr self "altEntityKind" altEntityKind
  H.setAttr self "altDomain" altDomain
  H.setAttr self "altCountry" altCountry
  H.setAttr self "altCategory" altCategory
  H.setAttr self "altSubcategory" altSubcategory
  H.setAttr self "altSpecific" altSpecific
  H.setAttr self "altExtra" altExtra
  H.setAttr self "xVelocity" xVelocity
  H.setAttr self "yVelocity" yVelocity
  H.setAttr self "zVelocity" zVelocity
  H.setAttr self "xLocation" xLocation
  H.setAttr self "yLocation" yLocation
  H.setAttr self "zLocation" zLocation
  H.setAttr self "psi" psi
  H.setAttr self "theta" theta
  H.setAttr self "phi" phi
  H.setAttr self "entityAppearance" entityAppearance
  H.setAttr self "deadReckoningAlgorithm" deadReckoningAlgorithm
  H.setOr self "otherParameters" otherParameters (H.zeros 15)
  H.setAttr self "xAcceleration" xAcceleration
  H.setAttr self "yAcceleration" yAcceleration
  H.setAttr self "zAcceleration" zAcceleration
  H.setAttr self "xAngularVelocity" xAngularVelocity
  H.setAttr self "yAngularVelocity" yAngularVelocity
  H.setAttr self "zAngularVelocity" zAngularVelocity
  H.setOr self "marking" marking (H.zeros 12)
  H.setAttr self "capabilities" capabilities
  H.setOr self "variableParameters" variableParameters (H.alloc (.list []))

/-- `FastEntityStatePdu(...)`, /repo/opendis/dis7.py:5646-5762. -/
def FastEntityStatePdu.newHeap (site : Val := .sc (.int 0)) (application : Val := .sc (.int 0))
    (entity : Val := .sc (.int 0)) (forceId : Val := .sc (.int 0))
    (numberOfVariableParameters : Val := .sc (.int 0)) (entityKind : Val := .sc (.int 0))
    (domain : Val := .sc (.int 0)) (country : Val := .sc (.int 0))
    (category : Val := .sc (.int 0)) (subcategory : Val := .sc (.int 0))
    (specific : Val := .sc (.int 0)) (extra : Val := .sc (.int 0))
    (altEntityKind : Val := .sc (.int 0)) (altDomain : Val := .sc (.int 0))
    (altCountry : Val := .sc (.int 0)) (altCategory : Val := .sc (.int 0))
    (altSubcategory : Val := .sc (.int 0)) (altSpecific : Val := .sc (.int 0))
    (altExtra : Val := .sc (.int 0)) (xVelocity : Val := .sc (.float 0x0000000000000000))
    (yVelocity : Val := .sc (.float 0x0000000000000000))
    (zVelocity : Val := .sc (.float 0x0000000000000000))
    (xLocation : Val := .sc (.float 0x0000000000000000))
    (yLocation : Val := .sc (.float 0x0000000000000000))
    (zLocation : Val := .sc (.float 0x0000000000000000))
    (psi : Val := .sc (.float 0x0000000000000000))
    (theta : Val := .sc (.float 0x0000000000000000))
    (phi : Val := .sc (.float 0x0000000000000000)) (entityAppearance : Val := .sc (.int 0))
    (deadReckoningAlgorithm : Val := .sc (.int 0)) (otherParameters : Val := .sc .none)
    (xAcceleration : Val := .sc (.float 0x0000000000000000))
    (yAcceleration : Val := .sc (.float 0x0000000000000000))
    (zAcceleration : Val := .sc (.float 0x0000000000000000))
    (xAngularVelocity : Val := .sc (.float 0x0000000000000000))
    (yAngularVelocity : Val := .sc (.float 0x0000000000000000))
    (zAngularVelocity : Val := .sc (.float 0x0000000000000000)) (marking : Val := .sc .none)
    (capabilities : Val := .sc (.int 0)) (variableParameters : Val := .sc .none) : H Ref :=
  H.new FastEntityStatePdu.attrs fun self => FastEntityStatePdu.initHeap self site application entity forceId numberOfVariableParameters entityKind domain country category subcategory specific extra altEntityKind altDomain altCountry altCategory altSubcategory altSpecific altExtra xVelocity yVelocity zVelocity xLocation yLocation zLocation psi theta phi entityAppearance deadReckoningAlgorithm otherParameters xAcceleration yAcceleration zAcceleration xAngularVelocity yAngularVelocity zAngularVelocity marking capabilities variableParameters

/-- `FastEntityStatePdu.parse`, /repo/opendis/dis7.py:5813-5868, statement by statement. -/
def FastEntityStatePdu.parseHeap (self : Ref) : H Unit := do
  EntityInformationFamilyPdu.parseHeap self
  let site ← H.read read_unsigned_short
  H.setAttr self "site" (.sc (.int site))
  let application ← H.read read_unsigned_short
  H.setAttr self "application" (.sc (.int application))
  let entity ← H.read read_unsigned_short
  H.setAttr self "entity" (.sc (.int entity))
  let forceId ← H.read read_unsigned_byte
  H.setAttr self "forceId" (.sc (.int forceId))
  let numberOfVariableParameters ← H.read read_byte
  H.setAttr self "numberOfVariableParameters" (.sc (.int numberOfVariableParameters))
  let entityKind ← H.read read_unsigned_byte
  H.setAttr self "entityKind" (.sc (.int entityKind))
  let domain ← H.read read_unsigned_byte
  H.setAttr self "domain" (.sc (.int domain))
  let country ← H.read read_unsigned_short
  H.setAttr self "country" (.sc (.int country))
  let category ← H.read read_unsigned_byte
  H.setAttr self "category" (.sc (.int category))
  let subcategory ← H.read read_unsigned_byte
  H.setAttr self "subcategory" (.sc (.int subcategory))
  let specific ← H.read read_unsigned_byte
  H.setAttr self "specific" (.sc (.int specific))
  let extra ← H.read read_unsigned_byte
  H.setAttr self "extra" (.sc (.int extra))
  let altEntityKind ← H.read read_unsigned_byte
  H.setAttr self "altEntityKind" (.sc (.int altEntityKind))
  let altDomain ← H.read read_unsigned_byte
  H.setAttr self "altDomain" (.sc (.int altDomain))
  let altCountry ← H.read read_unsigned_short
  H.setAttr self "altCountry" (.sc (.int altCountry))
  let altCategory ← H.read read_unsigned_byte
  H.setAttr self "altCategory" (.sc (.int altCategory))
  let altSubcategory ← H.read read_unsigned_byte
  H.setAttr self "altSubcategory" (.sc (.int altSubcategory))
  let altSpecific ← H.read read_unsigned_byte
  H.setAttr self "altSpecific" (.sc (.int altSpecific))
  let altExtra ← H.read read_unsigned_byte
  H.setAttr self "altExtra" (.sc (.int altExtra))
  let xVelocity ← H.read read_float
  H.setAttr self "xVelocity" (.sc (.float xVelocity))
  let yVelocity ← H.read read_float
  H.setAttr self "yVelocity" (.sc (.float yVelocity))
  let zVelocity ← H.read read_float
  H.setAttr self "zVelocity" (.sc (.float zVelocity))
  let xLocation ← H.read read_double
  H.setAttr self "xLocation" (.sc (.float xLocation))
  let yLocation ← H.read read_double
  H.setAttr self "yLocation" (.sc (.float yLocation))
  let zLocation ← H.read read_double
  H.setAttr self "zLocation" (.sc (.float zLocation))
  let psi ← H.read read_float
  H.setAttr self "psi" (.sc (.float psi))
  let theta ← H.read read_float
  H.setAttr self "theta" (.sc (.float theta))
  let phi ← H.read read_float
  H.setAttr self "phi" (.sc (.float phi))
  let entityAppearance ← H.read read_int
  H.setAttr self "entityAppearance" (.sc (.int entityAppearance))
  let deadReckoningAlgorithm ← H.read read_unsigned_byte
  H.setAttr self "deadReckoningAlgorithm" (.sc (.int deadReckoningAlgorithm))
  H.fillReads 15 read_byte self "otherParameters"
  let xAcceleration ← H.read read_float
  H.setAttr self "xAcceleration" (.sc (.float xAcceleration))
  let yAcceleration ← H.read read_float
  H.setAttr self "yAcceleration" (.sc (.float yAcceleration))
  let zAcceleration ← H.read read_float
  H.setAttr self "zAcceleration" (.sc (.float zAcceleration))
  let xAngularVelocity ← H.read read_float
  H.setAttr self "xAngularVelocity" (.sc (.float xAngularVelocity))
  let yAngularVelocity ← H.read read_float
  H.setAttr self "yAngularVelocity" (.sc (.float yAngularVelocity))
  let zAngularVelocity ← H.read read_float
  H.setAttr self "zAngularVelocity" (.sc (.float zAngularVelocity))
  H.fillReads 12 read_byte self "marking"
  let capabilities ← H.read read_int
  H.setAttr self "capabilities" (.sc (.int capabilities))
  H.appendObjs numberOfVariableParameters.toNat VariableParameter.newHeap VariableParameter.parseHeap self "variableParameters"
  return ()

/-- `FastEntityStatePdu.serialize`, /repo/opendis/dis7.py:5764-5811, statement by statement. -/
def FastEntityStatePdu.serializeHeap (self : Ref) : S Unit := do
  EntityInformationFamilyPdu.serializeHeap self
  S.putInt self "site" write_unsigned_short
  S.putInt self "application" write_unsigned_short
  S.putInt self "entity" write_unsigned_short
  S.putInt self "forceId" write_unsigned_byte
  S.putLen self "variableParameters" write_byte
  S.putInt self "entityKind" write_unsigned_byte
  S.putInt self "domain" write_unsigned_byte
  S.putInt self "country" write_unsigned_short
  S.putInt self "category" write_unsigned_byte
  S.putInt self "subcategory" write_unsigned_byte
  S.putInt self "specific" write_unsigned_byte
  S.putInt self "extra" write_unsigned_byte
  S.putInt self "altEntityKind" write_unsigned_byte
  S.putInt self "altDomain" write_unsigned_byte
  S.putInt self "altCountry" write_unsigned_short
  S.putInt self "altCategory" write_unsigned_byte
  S.putInt self "altSubcategory" write_unsigned_byte
  S.putInt self "altSpecific" write_unsigned_byte
  S.putInt self "altExtra" write_unsigned_byte
  S.putFloat self "xVelocity" write_float
  S.putFloat self "yVelocity" write_float
  S.putFloat self "zVelocity" write_float
  S.putFloat self "xLocation" write_double
  S.putFloat self "yLocation" write_double
  S.putFloat self "zLocation" write_double
  S.putFloat self "psi" write_float
  S.putFloat self "theta" write_float
  S.putFloat self "phi" write_float
  S.putInt self "entityAppearance" write_int
  S.putInt self "deadReckoningAlgorithm" write_unsigned_byte
  S.forRange 0 15 fun idx => S.putItem self "otherParameters" idx write_byte
  S.putFloat self "xAcceleration" write_float
  S.putFloat self "yAcceleration" write_float
  S.putFloat self "zAcceleration" write_float
  S.putFloat self "xAngularVelocity" write_float
  S.putFloat self "yAngularVelocity" write_float
  S.putFloat self "zAngularVelocity" write_float
  S.forRange 0 12 fun idx => S.putItem self "marking" idx write_byte
  S.putInt self "capabilities" write_int
  S.each self "variableParameters" VariableParameter.serializeHeap

/-- Attributes of a `AcknowledgeReliablePdu` object before `__init__` (/repo/opendis/dis7.py:5871-5902): class attributes have
values. -/
def AcknowledgeReliablePdu.attrs : List (String × Scalar) :=
  [("protocolVersion", .absent), ("exerciseID", .absent), ("pduType", .int 55),
   ("protocolFamily", .int 10), ("timestamp", .absent), ("length", .absent), ("pduStatus", .absent),
   ("padding", .absent), ("originatingEntityID", .absent), ("receivingEntityID", .absent),
   ("acknowledgeFlag", .absent), ("responseFlag", .absent), ("requestID", .absent)]

/-- `AcknowledgeReliablePdu.__init__`, /repo/opendis/dis7.py:5879-5888, statement by statement. -/
def AcknowledgeReliablePdu.initHeap (self : Ref) (acknowledgeFlag : Val := .sc (.int 0))
    (responseFlag : Val := .sc (.int 0)) (requestID : Val := .sc (.int 0)) : H Unit := do
  SimulationManagementWithReliabilityFamilyPdu.initHeap self
  H.setAttr self "acknowledgeFlag" acknowledgeFlag
  H.setAttr self "responseFlag" responseFlag
  H.setAttr self "requestID" requestID

/-- `AcknowledgeReliablePdu(...)`, /repo/opendis/dis7.py:5879-5888. -/
def AcknowledgeReliablePdu.newHeap (acknowledgeFlag : Val := .sc (.int 0))
    (responseFlag : Val := .sc (.int 0)) (requestID : Val := .sc (.int 0)) : H Ref :=
  H.new AcknowledgeReliablePdu.attrs fun self => AcknowledgeReliablePdu.initHeap self acknowledgeFlag responseFlag requestID

/-- `AcknowledgeReliablePdu.parse`, /repo/opendis/dis7.py:5897-5902, statement by statement. -/
def AcknowledgeReliablePdu.parseHeap (self : Ref) : H Unit := do
  SimulationManagementWithReliabilityFamilyPdu.parseHeap self
  let acknowledgeFlag ← H.read read_unsigned_short
  H.setAttr self "acknowledgeFlag" (.sc (.int acknowledgeFlag))
  let responseFlag ← H.read read_unsigned_short
  H.setAttr self "responseFlag" (.sc (.int responseFlag))
  let requestID ← H.read read_unsigned_int
  H.setAttr self "requestID" (.sc (.int requestID))
  return ()

/-- `AcknowledgeReliablePdu.serialize`, /repo/opendis/dis7.py:5890-5895, statement by statement. -/
def AcknowledgeReliablePdu.serializeHeap (self : Ref) : S Unit := do
  SimulationManagementWithReliabilityFamilyPdu.serializeHeap self
  S.putInt self "acknowledgeFlag" write_unsigned_short
  S.putInt self "responseFlag" write_unsigned_short
  S.putInt self "requestID" write_unsigned_int

/-- Attributes of a `StartResumeReliablePdu` object before `__init__` (/repo/opendis/dis7.py:5905-5946): class attributes have
values. -/
def StartResumeReliablePdu.attrs : List (String × Scalar) :=
  [("protocolVersion", .absent), ("exerciseID", .absent), ("pduType", .int 53),
   ("protocolFamily", .int 10), ("timestamp", .absent), ("length", .absent), ("pduStatus", .absent),
   ("padding", .absent), ("originatingEntityID", .absent), ("receivingEntityID", .absent),
   ("realWorldTime", .absent), ("simulationTime", .absent), ("requiredReliabilityService", .absent),
   ("pad1", .absent), ("pad2", .absent), ("requestID", .absent)]

/-- `StartResumeReliablePdu.__init__`, /repo/opendis/dis7.py:5912-5926, statement by statement. -/
def StartResumeReliablePdu.initHeap (self : Ref) (realWorldTime : Val := .sc .none)
    (simulationTime : Val := .sc .none) (requiredReliabilityService : Val := .sc (.int 0))
    (requestID : Val := .sc (.int 0)) : H Unit := do
  SimulationManagementWithReliabilityFamilyPdu.initHeap self
  H.setOr self "realWorldTime" realWorldTime ClockTime.newHeap
  H.setOr self "simulationTime" simulationTime ClockTime.newHeap
  H.setAttr self "requiredReliabilityService" requiredReliabilityService
  H.setAttr self "pad1" (.sc (.int 0))
  H.setAttr self "pad2" (.sc (.int 0))
  H.setAttr self "requestID" requestID

/-- `StartResumeReliablePdu(...)`, /repo/opendis/dis7.py:5912-5926. -/
def StartResumeReliablePdu.newHeap (realWorldTime : Val := .sc .none)
    (simulationTime : Val := .sc .none) (requiredReliabilityService : Val := .sc (.int 0))
    (requestID : Val := .sc (.int 0)) : H Ref :=
  H.new StartResumeReliablePdu.attrs fun self => StartResumeReliablePdu.initHeap self realWorldTime simulationTime requiredReliabilityService requestID

/-- `StartResumeReliablePdu.parse`, /repo/opendis/dis7.py:5938-5946, statement by statement. -/
def StartResumeReliablePdu.parseHeap (self : Ref) : H Unit := do
  SimulationManagementWithReliabilityFamilyPdu.parseHeap self
  H.call self "realWorldTime" ClockTime.parseHeap
  H.call self "simulationTime" ClockTime.parseHeap
  let requiredReliabilityService ← H.read read_unsigned_byte
  H.setAttr self "requiredReliabilityService" (.sc (.int requiredReliabilityService))
  let pad1 ← H.read read_unsigned_short
  H.setAttr self "pad1" (.sc (.int pad1))
  let pad2 ← H.read read_unsigned_byte
  H.setAttr self "pad2" (.sc (.int pad2))
  let requestID ← H.read read_unsigned_int
  H.setAttr self "requestID" (.sc (.int requestID))
  return ()

/-- `StartResumeReliablePdu.serialize`, /repo/opendis/dis7.py:5928-5936, statement by statement. -/
def StartResumeReliablePdu.serializeHeap (self : Ref) : S Unit := do
  SimulationManagementWithReliabilityFamilyPdu.serializeHeap self
  S.call self "realWorldTime" ClockTime.serializeHeap
  S.call self "simulationTime" ClockTime.serializeHeap
  S.putInt self "requiredReliabilityService" write_unsigned_byte
  S.putInt self "pad1" write_unsigned_short
  S.putInt self "pad2" write_unsigned_byte
  S.putInt self "requestID" write_unsigned_int

/-- Attributes of a `ArealObjectStatePdu` object before `__init__` (/repo/opendis/dis7.py:5949-6025): class attributes have
values. -/
def ArealObjectStatePdu.attrs : List (String × Scalar) :=
  [("protocolVersion", .absent), ("exerciseID", .absent), ("pduType", .int 45),
   ("protocolFamily", .int 9), ("timestamp", .absent), ("length", .absent), ("pduStatus", .absent),
   ("padding", .absent), ("objectID", .absent), ("referencedObjectID", .absent),
   ("updateNumber", .absent), ("forceID", .absent), ("modifications", .absent),
   ("objectType", .absent), ("specificObjectAppearance", .absent),
   ("generalObjectAppearance", .absent), ("requesterID", .absent), ("receivingID", .absent),
   ("objectLocation", .absent)]

/-- `ArealObjectStatePdu.__init__`, /repo/opendis/dis7.py:5958-5985, statement by statement. -/
def ArealObjectStatePdu.initHeap (self : Ref) (objectID : Val := .sc .none)
    (referencedObjectID : Val := .sc .none) (updateNumber : Val := .sc (.int 0))
    (forceId : Val := .sc (.int 0)) (modifications : Val := .sc (.int 0))
    (objectType : Val := .sc .none) (specificObjectAppearance : Val := .sc (.int 0))
    (generalObjectAppearance : Val := .sc (.int 0)) (requesterID : Val := .sc .none)
    (receivingID : Val := .sc .none) (objectLocation : Val := .sc .none) : H Unit := do
  SyntheticEnvironmentFamilyPdu.initHeap self
  H.setOr self "objectID" objectID EntityIdentifier.newHeap
  H.setOr self "referencedObjectID" referencedObjectID EntityIdentifier.newHeap
  H.setAttr self "updateNumber" updateNumber
  H.setAttr self "forceID" forceId
  H.setAttr self "modifications" modifications
  H.setOr self "objectType" objectType ObjectType.newHeap
  H.setAttr self "specificObjectAppearance" specificObjectAppearance
  H.setAttr self "generalObjectAppearance" generalObjectAppearance
  H.setOr self "requesterID" requesterID SimulationAddress.newHeap
  H.setOr self "receivingID" receivingID SimulationAddress.newHeap
  H.setOr self "objectLocation" objectLocation (H.alloc (.list []))

/-- `ArealObjectStatePdu(...)`, /repo/opendis/dis7.py:5958-5985. -/
def ArealObjectStatePdu.newHeap (objectID : Val := .sc .none)
    (referencedObjectID : Val := .sc .none) (updateNumber : Val := .sc (.int 0))
    (forceId : Val := .sc (.int 0)) (modifications : Val := .sc (.int 0))
    (objectType : Val := .sc .none) (specificObjectAppearance : Val := .sc (.int 0))
    (generalObjectAppearance : Val := .sc (.int 0)) (requesterID : Val := .sc .none)
    (receivingID : Val := .sc .none) (objectLocation : Val := .sc .none) : H Ref :=
  H.new ArealObjectStatePdu.attrs fun self => ArealObjectStatePdu.initHeap self objectID referencedObjectID updateNumber forceId modifications objectType specificObjectAppearance generalObjectAppearance requesterID receivingID objectLocation

/-- `ArealObjectStatePdu.parse`, /repo/opendis/dis7.py:6008-6025, statement by statement. -/
def ArealObjectStatePdu.parseHeap (self : Ref) : H Unit := do
  SyntheticEnvironmentFamilyPdu.parseHeap self
  H.call self "objectID" EntityIdentifier.parseHeap
  H.call self "referencedObjectID" EntityIdentifier.parseHeap
  let updateNumber ← H.read read_unsigned_short
  H.setAttr self "updateNumber" (.sc (.int updateNumber))
  let forceID ← H.read read_unsigned_byte
  H.setAttr self "forceID" (.sc (.int forceID))
  let modifications ← H.read read_unsigned_byte
  H.setAttr self "modifications" (.sc (.int modifications))
  H.call self "objectType" ObjectType.parseHeap
  let specificObjectAppearance ← H.read read_unsigned_int
  H.setAttr self "specificObjectAppearance" (.sc (.int specificObjectAppearance))
  let generalObjectAppearance ← H.read read_unsigned_short
  H.setAttr self "generalObjectAppearance" (.sc (.int generalObjectAppearance))
  let numberOfPoints ← H.read read_unsigned_short
  H.call self "requesterID" SimulationAddress.parseHeap
  H.call self "receivingID" SimulationAddress.parseHeap
  H.appendObjs numberOfPoints.toNat WorldCoordinates.newHeap WorldCoordinates.parseHeap self "objectLocation"
  return ()

/-- `ArealObjectStatePdu.serialize`, /repo/opendis/dis7.py:5991-6006, statement by statement. -/
def ArealObjectStatePdu.serializeHeap (self : Ref) : S Unit := do
  SyntheticEnvironmentFamilyPdu.serializeHeap self
  S.call self "objectID" EntityIdentifier.serializeHeap
  S.call self "referencedObjectID" EntityIdentifier.serializeHeap
  S.putInt self "updateNumber" write_unsigned_short
  S.putInt self "forceID" write_unsigned_byte
  S.putInt self "modifications" write_unsigned_byte
  S.call self "objectType" ObjectType.serializeHeap
  S.putInt self "specificObjectAppearance" write_unsigned_int
  S.putInt self "generalObjectAppearance" write_unsigned_short
  S.putLen self "objectLocation" write_unsigned_short
  S.call self "requesterID" SimulationAddress.serializeHeap
  S.call self "receivingID" SimulationAddress.serializeHeap
  S.each self "objectLocation" WorldCoordinates.serializeHeap

/-- Attributes of a `DataQueryReliablePdu` object before `__init__` (/repo/opendis/dis7.py:6028-6087): class attributes have
values. -/
def DataQueryReliablePdu.attrs : List (String × Scalar) :=
  [("protocolVersion", .absent), ("exerciseID", .absent), ("pduType", .int 58),
   ("protocolFamily", .int 10), ("timestamp", .absent), ("length", .absent), ("pduStatus", .absent),
   ("padding", .absent), ("originatingEntityID", .absent), ("receivingEntityID", .absent),
   ("requiredReliabilityService", .absent), ("pad1", .absent), ("pad2", .absent),
   ("requestID", .absent), ("timeInterval", .absent), ("_dataQuery", .absent)]

/-- `DataQueryReliablePdu.__init__`, /repo/opendis/dis7.py:6035-6051, statement by statement. -/
def DataQueryReliablePdu.initHeap (self : Ref)
    (requiredReliabilityService : Val := .sc (.int 0)) (requestID : Val := .sc (.int 0))
    (timeInterval : Val := .sc (.int 0)) (fixedDatumIDs : Val := .sc .none)
    (variableDatumIDs : Val := .sc .none) : H Unit := do
  SimulationManagementWithReliabilityFamilyPdu.initHeap self
  H.setAttr self "requiredReliabilityService" requiredReliabilityService
  H.setAttr self "pad1" (.sc (.int 0))
  H.setAttr self "pad2" (.sc (.int 0))
  H.setAttr self "requestID" requestID
  H.setAttr self "timeInterval" timeInterval
  H.setNew self "_dataQuery" (do
      let fixedDatumIDs ← H.orNew fixedDatumIDs (H.alloc (.list []))
      let variableDatumIDs ← H.orNew variableDatumIDs (H.alloc (.list []))
      DataQueryDatumSpecification.newHeap fixedDatumIDs variableDatumIDs)

/-- `DataQueryReliablePdu(...)`, /repo/opendis/dis7.py:6035-6051. -/
def DataQueryReliablePdu.newHeap (requiredReliabilityService : Val := .sc (.int 0))
    (requestID : Val := .sc (.int 0)) (timeInterval : Val := .sc (.int 0))
    (fixedDatumIDs : Val := .sc .none) (variableDatumIDs : Val := .sc .none) : H Ref :=
  H.new DataQueryReliablePdu.attrs fun self => DataQueryReliablePdu.initHeap self requiredReliabilityService requestID timeInterval fixedDatumIDs variableDatumIDs

/-- `DataQueryReliablePdu.parse`, /repo/opendis/dis7.py:6079-6087, statement by statement. -/
def DataQueryReliablePdu.parseHeap (self : Ref) : H Unit := do
  SimulationManagementWithReliabilityFamilyPdu.parseHeap self
  let requiredReliabilityService ← H.read read_unsigned_byte
  H.setAttr self "requiredReliabilityService" (.sc (.int requiredReliabilityService))
  let pad1 ← H.read read_unsigned_short
  H.setAttr self "pad1" (.sc (.int pad1))
  let pad2 ← H.read read_unsigned_byte
  H.setAttr self "pad2" (.sc (.int pad2))
  let requestID ← H.read read_unsigned_int
  H.setAttr self "requestID" (.sc (.int requestID))
  let timeInterval ← H.read read_unsigned_int
  H.setAttr self "timeInterval" (.sc (.int timeInterval))
  H.call self "_dataQuery" DataQueryDatumSpecification.parseHeap
  return ()

/-- `DataQueryReliablePdu.serialize`, /repo/opendis/dis7.py:6069-6077, statement by statement. -/
def DataQueryReliablePdu.serializeHeap (self : Ref) : S Unit := do
  SimulationManagementWithReliabilityFamilyPdu.serializeHeap self
  S.putInt self "requiredReliabilityService" write_unsigned_byte
  S.putInt self "pad1" write_unsigned_short
  S.putInt self "pad2" write_unsigned_byte
  S.putInt self "requestID" write_unsigned_int
  S.putInt self "timeInterval" write_unsigned_int
  S.call self "_dataQuery" DataQueryDatumSpecification.serializeHeap

/-- Attributes of a `MinefieldStatePdu` object before `__init__` (/repo/opendis/dis7.py:6090-6172): class attributes have
values. -/
def MinefieldStatePdu.attrs : List (String × Scalar) :=
  [("protocolVersion", .absent), ("exerciseID", .absent), ("pduType", .int 37),
   ("protocolFamily", .int 8), ("timestamp", .absent), ("length", .absent), ("pduStatus", .absent),
   ("padding", .absent), ("minefieldID", .absent), ("minefieldSequence", .absent),
   ("forceID", .absent), ("minefieldType", .absent), ("minefieldLocation", .absent),
   ("minefieldOrientation", .absent), ("appearance", .absent), ("protocolMode", .absent),
   ("perimeterPoints", .absent), ("mineTypes", .absent)]

/-- `MinefieldStatePdu.__init__`, /repo/opendis/dis7.py:6098-6122, statement by statement. -/
def MinefieldStatePdu.initHeap (self : Ref) (minefieldID : Val := .sc .none)
    (minefieldSequence : Val := .sc (.int 0)) (forceID : Val := .sc (.int 0))
    (minefieldType : Val := .sc .none) (minefieldLocation : Val := .sc .none)
    (minefieldOrientation : Val := .sc .none) (appearance : Val := .sc (.int 0))
    (protocolMode : Val := .sc (.int 0)) (perimeterPoints : Val := .sc .none)
    (mineTypes : Val := .sc .none) : H Unit := do
  MinefieldFamilyPdu.initHeap self
  H.setOr self "minefieldID" minefieldID MinefieldIdentifier.newHeap
  H.setAttr self "minefieldSequence" minefieldSequence
  H.setAttr self "forceID" forceID
  H.setOr self "minefieldType" minefieldType EntityType.newHeap
  H.setOr self "minefieldLocation" minefieldLocation WorldCoordinates.newHeap
  H.setOr self "minefieldOrientation" minefieldOrientation EulerAngles.newHeap
  H.setAttr self "appearance" appearance
  H.setAttr self "protocolMode" protocolMode
  H.setOr self "perimeterPoints" perimeterPoints (H.alloc (.list []))
  H.setOr self "mineTypes" mineTypes (H.alloc (.list []))

/-- `MinefieldStatePdu(...)`, /repo/opendis/dis7.py:6098-6122. -/
def MinefieldStatePdu.newHeap (minefieldID : Val := .sc .none)
    (minefieldSequence : Val := .sc (.int 0)) (forceID : Val := .sc (.int 0))
    (minefieldType : Val := .sc .none) (minefieldLocation : Val := .sc .none)
    (minefieldOrientation : Val := .sc .none) (appearance : Val := .sc (.int 0))
    (protocolMode : Val := .sc (.int 0)) (perimeterPoints : Val := .sc .none)
    (mineTypes : Val := .sc .none) : H Ref :=
  H.new MinefieldStatePdu.attrs fun self => MinefieldStatePdu.initHeap self minefieldID minefieldSequence forceID minefieldType minefieldLocation minefieldOrientation appearance protocolMode perimeterPoints mineTypes

/-- `MinefieldStatePdu.parse`, /repo/opendis/dis7.py:6151-6172, statement by statement. -/
def MinefieldStatePdu.parseHeap (self : Ref) : H Unit := do
  MinefieldFamilyPdu.parseHeap self
  H.call self "minefieldID" MinefieldIdentifier.parseHeap
  let minefieldSequence ← H.read read_unsigned_short
  H.setAttr self "minefieldSequence" (.sc (.int minefieldSequence))
  let forceID ← H.read read_unsigned_byte
  H.setAttr self "forceID" (.sc (.int forceID))
  let numberOfPerimeterPoints ← H.read read_unsigned_byte
  H.call self "minefieldType" EntityType.parseHeap
  let numberOfMineTypes ← H.read read_unsigned_short
  H.call self "minefieldLocation" WorldCoordinates.parseHeap
  H.call self "minefieldOrientation" EulerAngles.parseHeap
  let appearance ← H.read read_unsigned_short
  H.setAttr self "appearance" (.sc (.int appearance))
  let protocolMode ← H.read read_unsigned_short
  H.setAttr self "protocolMode" (.sc (.int protocolMode))
  H.appendObjs numberOfPerimeterPoints.toNat Vector2Float.newHeap Vector2Float.parseHeap self "perimeterPoints"
  H.appendObjs numberOfMineTypes.toNat EntityType.newHeap EntityType.parseHeap self "mineTypes"
  return ()

/-- `MinefieldStatePdu.serialize`, /repo/opendis/dis7.py:6132-6149, statement by statement. -/
def MinefieldStatePdu.serializeHeap (self : Ref) : S Unit := do
  MinefieldFamilyPdu.serializeHeap self
  S.call self "minefieldID" MinefieldIdentifier.serializeHeap
  S.putInt self "minefieldSequence" write_unsigned_short
  S.putInt self "forceID" write_unsigned_byte
  S.putLen self "perimeterPoints" write_unsigned_byte
  S.call self "minefieldType" EntityType.serializeHeap
  S.putLen self "mineTypes" write_unsigned_short
  S.call self "minefieldLocation" WorldCoordinates.serializeHeap
  S.call self "minefieldOrientation" EulerAngles.serializeHeap
  S.putInt self "appearance" write_unsigned_short
  S.putInt self "protocolMode" write_unsigned_short
  S.each self "perimeterPoints" Vector2Float.serializeHeap
  S.each self "mineTypes" EntityType.serializeHeap

/-- Attributes of a `DataReliablePdu` object before `__init__` (/repo/opendis/dis7.py:6175-6230): class attributes have
values. -/
def DataReliablePdu.attrs : List (String × Scalar) :=
  [("protocolVersion", .absent), ("exerciseID", .absent), ("pduType", .int 60),
   ("protocolFamily", .int 10), ("timestamp", .absent), ("length", .absent), ("pduStatus", .absent),
   ("padding", .absent), ("originatingEntityID", .absent), ("receivingEntityID", .absent),
   ("requestID", .absent), ("requiredReliabilityService", .absent), ("pad1", .absent),
   ("pad2", .absent), ("_datums", .absent)]

/-- `DataReliablePdu.__init__`, /repo/opendis/dis7.py:6183-6196, statement by statement. -/
def DataReliablePdu.initHeap (self : Ref) (requestID : Val := .sc (.int 0))
    (requiredReliabilityService : Val := .sc (.int 0)) (fixedDatumRecords : Val := .sc .none)
    (variableDatumRecords : Val := .sc .none) : H Unit := do
  SimulationManagementWithReliabilityFamilyPdu.initHeap self
  H.setAttr self "requestID" requestID
  H.setAttr self "requiredReliabilityService" requiredReliabilityService
  H.setAttr self "pad1" (.sc (.int 0))
  H.setAttr self "pad2" (.sc (.int 0))
  H.setNew self "_datums" (do
      let fixedDatumRecords ← H.orNew fixedDatumRecords (H.alloc (.list []))
      let variableDatumRecords ← H.orNew variableDatumRecords (H.alloc (.list []))
      DatumSpecification.newHeap fixedDatumRecords variableDatumRecords)

/-- `DataReliablePdu(...)`, /repo/opendis/dis7.py:6183-6196. -/
def DataReliablePdu.newHeap (requestID : Val := .sc (.int 0))
    (requiredReliabilityService : Val := .sc (.int 0)) (fixedDatumRecords : Val := .sc .none)
    (variableDatumRecords : Val := .sc .none) : H Ref :=
  H.new DataReliablePdu.attrs fun self => DataReliablePdu.initHeap self requestID requiredReliabilityService fixedDatumRecords variableDatumRecords

/-- `DataReliablePdu.parse`, /repo/opendis/dis7.py:6223-6230, statement by statement. -/
def DataReliablePdu.parseHeap (self : Ref) : H Unit := do
  SimulationManagementWithReliabilityFamilyPdu.parseHeap self
  let requestID ← H.read read_unsigned_int
  H.setAttr self "requestID" (.sc (.int requestID))
  let requiredReliabilityService ← H.read read_unsigned_byte
  H.setAttr self "requiredReliabilityService" (.sc (.int requiredReliabilityService))
  let pad1 ← H.read read_unsigned_short
  H.setAttr self "pad1" (.sc (.int pad1))
  let pad2 ← H.read read_unsigned_byte
  H.setAttr self "pad2" (.sc (.int pad2))
  H.call self "_datums" DatumSpecification.parseHeap
  return ()

/-- `DataReliablePdu.serialize`, /repo/opendis/dis7.py:6214-6221, statement by statement. -/
def DataReliablePdu.serializeHeap (self : Ref) : S Unit := do
  SimulationManagementWithReliabilityFamilyPdu.serializeHeap self
  S.putInt self "requestID" write_unsigned_int
  S.putInt self "requiredReliabilityService" write_unsigned_byte
  S.putInt self "pad1" write_unsigned_short
  S.putInt self "pad2" write_unsigned_byte
  S.call self "_datums" DatumSpecification.serializeHeap

/-- Attributes of a `CommentPdu` object before `__init__` (/repo/opendis/dis7.py:6233-6272): class attributes have
values. -/
def CommentPdu.attrs : List (String × Scalar) :=
  [("protocolVersion", .absent), ("exerciseID", .absent), ("pduType", .int 22),
   ("protocolFamily", .int 5), ("timestamp", .absent), ("length", .absent), ("pduStatus", .absent),
   ("padding", .absent), ("originatingEntityID", .absent), ("receivingEntityID", .absent),
   ("_datums", .absent)]

/-- `CommentPdu.__init__`, /repo/opendis/dis7.py:6240-6246, statement by statement. -/
def CommentPdu.initHeap (self : Ref) (fixedDatumRecords : Val := .sc .none)
    (variableDatumRecords : Val := .sc .none) : H Unit := do
  SimulationManagementFamilyPdu.initHeap self
  H.setNew self "_datums" (do
      let fixedDatumRecords ← H.orNew fixedDatumRecords (H.alloc (.list []))
      let variableDatumRecords ← H.orNew variableDatumRecords (H.alloc (.list []))
      DatumSpecification.newHeap fixedDatumRecords variableDatumRecords)

/-- `CommentPdu(...)`, /repo/opendis/dis7.py:6240-6246. -/
def CommentPdu.newHeap (fixedDatumRecords : Val := .sc .none)
    (variableDatumRecords : Val := .sc .none) : H Ref :=
  H.new CommentPdu.attrs fun self => CommentPdu.initHeap self fixedDatumRecords variableDatumRecords

/-- `CommentPdu.parse`, /repo/opendis/dis7.py:6269-6272, statement by statement. -/
def CommentPdu.parseHeap (self : Ref) : H Unit := do
  SimulationManagementFamilyPdu.parseHeap self
  H.call self "_datums" DatumSpecification.parseHeap
  return ()

/-- `CommentPdu.serialize`, /repo/opendis/dis7.py:6264-6267, statement by statement. -/
def CommentPdu.serializeHeap (self : Ref) : S Unit := do
  SimulationManagementFamilyPdu.serializeHeap self
  S.call self "_datums" DatumSpecification.serializeHeap

/-- Attributes of a `CommentReliablePdu` object before `__init__` (/repo/opendis/dis7.py:6275-6315): class attributes have
values. -/
def CommentReliablePdu.attrs : List (String × Scalar) :=
  [("protocolVersion", .absent), ("exerciseID", .absent), ("pduType", .int 62),
   ("protocolFamily", .int 10), ("timestamp", .absent), ("length", .absent), ("pduStatus", .absent),
   ("padding", .absent), ("originatingEntityID", .absent), ("receivingEntityID", .absent),
   ("_datums", .absent)]

/-- `CommentReliablePdu.__init__`, /repo/opendis/dis7.py:6283-6289, statement by statement. -/
def CommentReliablePdu.initHeap (self : Ref) (fixedDatumRecords : Val := .sc .none)
    (variableDatumRecords : Val := .sc .none) : H Unit := do
  SimulationManagementWithReliabilityFamilyPdu.initHeap self
  H.setNew self "_datums" (do
      let fixedDatumRecords ← H.orNew fixedDatumRecords (H.alloc (.list []))
      let variableDatumRecords ← H.orNew variableDatumRecords (H.alloc (.list []))
      DatumSpecification.newHeap fixedDatumRecords variableDatumRecords)

/-- `CommentReliablePdu(...)`, /repo/opendis/dis7.py:6283-6289. -/
def CommentReliablePdu.newHeap (fixedDatumRecords : Val := .sc .none)
    (variableDatumRecords : Val := .sc .none) : H Ref :=
  H.new CommentReliablePdu.attrs fun self => CommentReliablePdu.initHeap self fixedDatumRecords variableDatumRecords

/-- `CommentReliablePdu.parse`, /repo/opendis/dis7.py:6312-6315, statement by statement. -/
def CommentReliablePdu.parseHeap (self : Ref) : H Unit := do
  SimulationManagementWithReliabilityFamilyPdu.parseHeap self
  H.call self "_datums" DatumSpecification.parseHeap
  return ()

/-- `CommentReliablePdu.serialize`, /repo/opendis/dis7.py:6307-6310, statement by statement. -/
def CommentReliablePdu.serializeHeap (self : Ref) : S Unit := do
  SimulationManagementWithReliabilityFamilyPdu.serializeHeap self
  S.call self "_datums" DatumSpecification.serializeHeap

/-- Attributes of a `DetonationPdu` object before `__init__` (/repo/opendis/dis7.py:6406-6475): class attributes have
values. -/
def DetonationPdu.attrs : List (String × Scalar) :=
  [("protocolVersion", .absent), ("exerciseID", .absent), ("pduType", .int 3),
   ("protocolFamily", .int 2), ("timestamp", .absent), ("length", .absent), ("pduStatus", .absent),
   ("padding", .absent), ("firingEntityID", .absent), ("targetEntityID", .absent),
   ("explodingEntityID", .absent), ("eventID", .absent), ("velocity", .absent),
   ("location", .absent), ("descriptor", .absent), ("locationInEntityCoordinates", .absent),
   ("detonationResult", .absent), ("pad", .absent), ("variableParameters", .absent)]

/-- `DetonationPdu.__init__`, /repo/opendis/dis7.py:6415-6439, statement by statement. -/
def DetonationPdu.initHeap (self : Ref) (explodingEntityID : Val := .sc .none)
    (eventID : Val := .sc .none) (velocity : Val := .sc .none) (location : Val := .sc .none)
    (descriptor : Val := .sc .none) (locationInEntityCoordinates : Val := .sc .none)
    (detonationResult : Val := .sc (.int 0)) (variableParameters : Val := .sc .none) : H Unit := do
  WarfareFamilyPdu.initHeap self
  H.setOr self "explodingEntityID" explodingEntityID EntityIdentifier.newHeap
  H.setOr self "eventID" eventID EventIdentifier.newHeap
  H.setOr self "velocity" velocity Vector3Float.newHeap
  H.setOr self "location" location WorldCoordinates.newHeap
  H.setOr self "descriptor" descriptor MunitionDescriptor.newHeap
  H.setOr self "locationInEntityCoordinates" locationInEntityCoordinates Vector3Float.newHeap
  H.setAttr self "detonationResult" detonationResult
  H.setAttr self "pad" (.sc (.int 0))
  H.setOr self "variableParameters" variableParameters (H.alloc (.list []))

/-- `DetonationPdu(...)`, /repo/opendis/dis7.py:6415-6439. -/
def DetonationPdu.newHeap (explodingEntityID : Val := .sc .none) (eventID : Val := .sc .none)
    (velocity : Val := .sc .none) (location : Val := .sc .none) (descriptor : Val := .sc .none)
    (locationInEntityCoordinates : Val := .sc .none) (detonationResult : Val := .sc (.int 0))
    (variableParameters : Val := .sc .none) : H Ref :=
  H.new DetonationPdu.attrs fun self => DetonationPdu.initHeap self explodingEntityID eventID velocity location descriptor locationInEntityCoordinates detonationResult variableParameters

/-- `DetonationPdu.parse`, /repo/opendis/dis7.py:6460-6475, statement by statement. -/
def DetonationPdu.parseHeap (self : Ref) : H Unit := do
  WarfareFamilyPdu.parseHeap self
  H.call self "explodingEntityID" EntityIdentifier.parseHeap
  H.call self "eventID" EventIdentifier.parseHeap
  H.call self "velocity" Vector3Float.parseHeap
  H.call self "location" WorldCoordinates.parseHeap
  H.call self "descriptor" MunitionDescriptor.parseHeap
  H.call self "locationInEntityCoordinates" Vector3Float.parseHeap
  let detonationResult ← H.read read_unsigned_byte
  H.setAttr self "detonationResult" (.sc (.int detonationResult))
  let numberOfVariableParameters ← H.read read_unsigned_byte
  let pad ← H.read read_unsigned_short
  H.setAttr self "pad" (.sc (.int pad))
  H.appendObjs numberOfVariableParameters.toNat VariableParameter.newHeap VariableParameter.parseHeap self "variableParameters"
  return ()

/-- `DetonationPdu.serialize`, /repo/opendis/dis7.py:6445-6458, statement by statement. -/
def DetonationPdu.serializeHeap (self : Ref) : S Unit := do
  WarfareFamilyPdu.serializeHeap self
  S.call self "explodingEntityID" EntityIdentifier.serializeHeap
  S.call self "eventID" EventIdentifier.serializeHeap
  S.call self "velocity" Vector3Float.serializeHeap
  S.call self "location" WorldCoordinates.serializeHeap
  S.call self "descriptor" MunitionDescriptor.serializeHeap
  S.call self "locationInEntityCoordinates" Vector3Float.serializeHeap
  S.putInt self "detonationResult" write_unsigned_byte
  S.putLen self "variableParameters" write_unsigned_byte
  S.putInt self "pad" write_unsigned_short
  S.each self "variableParameters" VariableParameter.serializeHeap

/-- Attributes of a `SetDataPdu` object before `__init__` (/repo/opendis/dis7.py:6478-6524): class attributes have
values. -/
def SetDataPdu.attrs : List (String × Scalar) :=
  [("protocolVersion", .absent), ("exerciseID", .absent), ("pduType", .int 19),
   ("protocolFamily", .int 5), ("timestamp", .absent), ("length", .absent), ("pduStatus", .absent),
   ("padding", .absent), ("originatingEntityID", .absent), ("receivingEntityID", .absent),
   ("requestID", .absent), ("padding1", .absent), ("_datums", .absent)]

/-- `SetDataPdu.__init__`, /repo/opendis/dis7.py:6485-6494, statement by statement. -/
def SetDataPdu.initHeap (self : Ref) (requestID : Val := .sc (.int 0))
    (fixedDatumRecords : Val := .sc .none) (variableDatumRecords : Val := .sc .none) : H Unit := do
  SimulationManagementFamilyPdu.initHeap self
  H.setAttr self "requestID" requestID
  H.setAttr self "padding1" (.sc (.int 0))
  H.setNew self "_datums" (do
      let fixedDatumRecords ← H.orNew fixedDatumRecords (H.alloc (.list []))
      let variableDatumRecords ← H.orNew variableDatumRecords (H.alloc (.list []))
      DatumSpecification.newHeap fixedDatumRecords variableDatumRecords)

/-- `SetDataPdu(...)`, /repo/opendis/dis7.py:6485-6494. -/
def SetDataPdu.newHeap (requestID : Val := .sc (.int 0)) (fixedDatumRecords : Val := .sc .none)
    (variableDatumRecords : Val := .sc .none) : H Ref :=
  H.new SetDataPdu.attrs fun self => SetDataPdu.initHeap self requestID fixedDatumRecords variableDatumRecords

/-- `SetDataPdu.parse`, /repo/opendis/dis7.py:6519-6524, statement by statement. -/
def SetDataPdu.parseHeap (self : Ref) : H Unit := do
  SimulationManagementFamilyPdu.parseHeap self
  let requestID ← H.read read_unsigned_int
  H.setAttr self "requestID" (.sc (.int requestID))
  let padding1 ← H.read read_unsigned_int
  H.setAttr self "padding1" (.sc (.int padding1))
  H.call self "_datums" DatumSpecification.parseHeap
  return ()

/-- `SetDataPdu.serialize`, /repo/opendis/dis7.py:6512-6517, statement by statement. -/
def SetDataPdu.serializeHeap (self : Ref) : S Unit := do
  SimulationManagementFamilyPdu.serializeHeap self
  S.putInt self "requestID" write_unsigned_int
  S.putInt self "padding1" write_unsigned_int
  S.call self "_datums" DatumSpecification.serializeHeap

/-- Attributes of a `RecordQueryReliablePdu` object before `__init__` (/repo/opendis/dis7.py:6527-6581): class attributes have
values. -/
def RecordQueryReliablePdu.attrs : List (String × Scalar) :=
  [("protocolVersion", .absent), ("exerciseID", .absent), ("pduType", .int 63),
   ("protocolFamily", .int 10), ("timestamp", .absent), ("length", .absent), ("pduStatus", .absent),
   ("padding", .absent), ("originatingEntityID", .absent), ("receivingEntityID", .absent),
   ("requestID", .absent), ("requiredReliabilityService", .absent), ("pad1", .absent),
   ("pad2", .absent), ("eventType", .absent), ("time", .absent), ("recordIDs", .absent)]

/-- `RecordQueryReliablePdu.__init__`, /repo/opendis/dis7.py:6534-6549, statement by statement. -/
def RecordQueryReliablePdu.initHeap (self : Ref) (requestID : Val := .sc (.int 0))
    (requiredReliabilityService : Val := .sc (.int 0)) (eventType : Val := .sc (.int 0))
    (time : Val := .sc (.int 0)) (recordIDs : Val := .sc .none) : H Unit := do
  SimulationManagementWithReliabilityFamilyPdu.initHeap self
  H.setAttr self "requestID" requestID
  H.setAttr self "requiredReliabilityService" requiredReliabilityService
  H.setAttr self "pad1" (.sc (.int 0))
  H.setAttr self "pad2" (.sc (.int 0))
  H.setAttr self "eventType" eventType
  H.setAttr self "time" time
  H.setOr self "recordIDs" recordIDs (H.alloc (.list []))

/-- `RecordQueryReliablePdu(...)`, /repo/opendis/dis7.py:6534-6549. -/
def RecordQueryReliablePdu.newHeap (requestID : Val := .sc (.int 0))
    (requiredReliabilityService : Val := .sc (.int 0)) (eventType : Val := .sc (.int 0))
    (time : Val := .sc (.int 0)) (recordIDs : Val := .sc .none) : H Ref :=
  H.new RecordQueryReliablePdu.attrs fun self => RecordQueryReliablePdu.initHeap self requestID requiredReliabilityService eventType time recordIDs

/-- `RecordQueryReliablePdu.parse`, /repo/opendis/dis7.py:6568-6581, statement by statement. -/
def RecordQueryReliablePdu.parseHeap (self : Ref) : H Unit := do
  SimulationManagementWithReliabilityFamilyPdu.parseHeap self
  let requestID ← H.read read_unsigned_int
  H.setAttr self "requestID" (.sc (.int requestID))
  let requiredReliabilityService ← H.read read_unsigned_byte
  H.setAttr self "requiredReliabilityService" (.sc (.int requiredReliabilityService))
  let pad1 ← H.read read_unsigned_short
  H.setAttr self "pad1" (.sc (.int pad1))
  let pad2 ← H.read read_unsigned_byte
  H.setAttr self "pad2" (.sc (.int pad2))
  let eventType ← H.read read_unsigned_short
  H.setAttr self "eventType" (.sc (.int eventType))
  let time ← H.read read_unsigned_int
  H.setAttr self "time" (.sc (.int time))
  let numberOfRecords ← H.read read_unsigned_int
  H.appendReads numberOfRecords.toNat (R.throw .nameError : R Int) .int self "recordIDs"
  return ()

/-- `RecordQueryReliablePdu.serialize`, /repo/opendis/dis7.py:6555-6566, statement by statement. -/
def RecordQueryReliablePdu.serializeHeap (self : Ref) : S Unit := do
  SimulationManagementWithReliabilityFamilyPdu.serializeHeap self
  S.putInt self "requestID" write_unsigned_int
  S.putInt self "requiredReliabilityService" write_unsigned_byte
  S.putInt self "pad1" write_unsigned_short
  S.putInt self "pad2" write_unsigned_byte
  S.putInt self "eventType" write_unsigned_short
  S.putInt self "time" write_unsigned_int
  S.putLen self "recordIDs" write_unsigned_int
  S.each self "recordIDs" fun _ => S.throw .attributeError

/-- Attributes of a `ActionResponsePdu` object before `__init__` (/repo/opendis/dis7.py:6584-6632): class attributes have
values. -/
def ActionResponsePdu.attrs : List (String × Scalar) :=
  [("protocolVersion", .absent), ("exerciseID", .absent), ("pduType", .int 17),
   ("protocolFamily", .int 5), ("timestamp", .absent), ("length", .absent), ("pduStatus", .absent),
   ("padding", .absent), ("originatingEntityID", .absent), ("receivingEntityID", .absent),
   ("requestID", .absent), ("requestStatus", .absent), ("_datums", .absent)]

/-- `ActionResponsePdu.__init__`, /repo/opendis/dis7.py:6591-6602, statement by statement. -/
def ActionResponsePdu.initHeap (self : Ref) (requestID : Val := .sc (.int 0))
    (requestStatus : Val := .sc (.int 0)) (fixedDatumRecords : Val := .sc .none)
    (variableDatumRecords : Val := .sc .none) : H Unit := do
  SimulationManagementFamilyPdu.initHeap self
  H.setAttr self "requestID" requestID
  H.setAttr self "requestStatus" requestStatus
  H.setNew self "_datums" (do
      let fixedDatumRecords ← H.orNew fixedDatumRecords (H.alloc (.list []))
      let variableDatumRecords ← H.orNew variableDatumRecords (H.alloc (.list []))
      DatumSpecification.newHeap fixedDatumRecords variableDatumRecords)

/-- `ActionResponsePdu(...)`, /repo/opendis/dis7.py:6591-6602. -/
def ActionResponsePdu.newHeap (requestID : Val := .sc (.int 0))
    (requestStatus : Val := .sc (.int 0)) (fixedDatumRecords : Val := .sc .none)
    (variableDatumRecords : Val := .sc .none) : H Ref :=
  H.new ActionResponsePdu.attrs fun self => ActionResponsePdu.initHeap self requestID requestStatus fixedDatumRecords variableDatumRecords

/-- `ActionResponsePdu.parse`, /repo/opendis/dis7.py:6627-6632, statement by statement. -/
def ActionResponsePdu.parseHeap (self : Ref) : H Unit := do
  SimulationManagementFamilyPdu.parseHeap self
  let requestID ← H.read read_unsigned_int
  H.setAttr self "requestID" (.sc (.int requestID))
  let requestStatus ← H.read read_unsigned_int
  H.setAttr self "requestStatus" (.sc (.int requestStatus))
  H.call self "_datums" DatumSpecification.parseHeap
  return ()

/-- `ActionResponsePdu.serialize`, /repo/opendis/dis7.py:6620-6625, statement by statement. -/
def ActionResponsePdu.serializeHeap (self : Ref) : S Unit := do
  SimulationManagementFamilyPdu.serializeHeap self
  S.putInt self "requestID" write_unsigned_int
  S.putInt self "requestStatus" write_unsigned_int
  S.call self "_datums" DatumSpecification.serializeHeap

/-- Attributes of a `FirePdu` object before `__init__` (/repo/opendis/dis7.py:6680-6733): class attributes have
values. -/
def FirePdu.attrs : List (String × Scalar) :=
  [("protocolVersion", .absent), ("exerciseID", .absent), ("pduType", .int 2),
   ("protocolFamily", .int 2), ("timestamp", .absent), ("length", .absent), ("pduStatus", .absent),
   ("padding", .absent), ("firingEntityID", .absent), ("targetEntityID", .absent),
   ("munitionExpendableID", .absent), ("eventID", .absent), ("fireMissionIndex", .absent),
   ("location", .absent), ("descriptor", .absent), ("velocity", .absent), ("range", .absent)]

/-- `FirePdu.__init__`, /repo/opendis/dis7.py:6688-6711, statement by statement. -/
def FirePdu.initHeap (self : Ref) (munitionExpendableID : Val := .sc .none)
    (eventID : Val := .sc .none) (fireMissionIndex : Val := .sc (.int 0))
    (location : Val := .sc .none) (descriptor : Val := .sc .none) (velocity : Val := .sc .none)
    (range_ : Val := .sc (.float 0x0000000000000000)) : H Unit := do
  WarfareFamilyPdu.initHeap self
  H.setOr self "munitionExpendableID" munitionExpendableID EntityIdentifier.newHeap
  H.setOr self "eventID" eventID EventIdentifier.newHeap
  H.setAttr self "fireMissionIndex" fireMissionIndex
  H.setOr self "location" location WorldCoordinates.newHeap
  H.setOr self "descriptor" descriptor MunitionDescriptor.newHeap
  H.setOr self "velocity" velocity Vector3Float.newHeap
  H.setAttr self "range" range_

/-- `FirePdu(...)`, /repo/opendis/dis7.py:6688-6711. -/
def FirePdu.newHeap (munitionExpendableID : Val := .sc .none) (eventID : Val := .sc .none)
    (fireMissionIndex : Val := .sc (.int 0)) (location : Val := .sc .none)
    (descriptor : Val := .sc .none) (velocity : Val := .sc .none)
    (range_ : Val := .sc (.float 0x0000000000000000)) : H Ref :=
  H.new FirePdu.attrs fun self => FirePdu.initHeap self munitionExpendableID eventID fireMissionIndex location descriptor velocity range_

/-- `FirePdu.parse`, /repo/opendis/dis7.py:6724-6733, statement by statement. -/
def FirePdu.parseHeap (self : Ref) : H Unit := do
  WarfareFamilyPdu.parseHeap self
  H.call self "munitionExpendableID" EntityIdentifier.parseHeap
  H.call self "eventID" EventIdentifier.parseHeap
  let fireMissionIndex ← H.read read_unsigned_int
  H.setAttr self "fireMissionIndex" (.sc (.int fireMissionIndex))
  H.call self "location" WorldCoordinates.parseHeap
  H.call self "descriptor" MunitionDescriptor.parseHeap
  H.call self "velocity" Vector3Float.parseHeap
  let range ← H.read read_float
  H.setAttr self "range" (.sc (.float range))
  return ()

/-- `FirePdu.serialize`, /repo/opendis/dis7.py:6713-6722, statement by statement. -/
def FirePdu.serializeHeap (self : Ref) : S Unit := do
  WarfareFamilyPdu.serializeHeap self
  S.call self "munitionExpendableID" EntityIdentifier.serializeHeap
  S.call self "eventID" EventIdentifier.serializeHeap
  S.putInt self "fireMissionIndex" write_unsigned_int
  S.call self "location" WorldCoordinates.serializeHeap
  S.call self "descriptor" MunitionDescriptor.serializeHeap
  S.call self "velocity" Vector3Float.serializeHeap
  S.putFloat self "range" write_float

/-- Attributes of a `ReceiverPdu` object before `__init__` (/repo/opendis/dis7.py:6736-6775): class attributes have
values. -/
def ReceiverPdu.attrs : List (String × Scalar) :=
  [("protocolVersion", .absent), ("exerciseID", .absent), ("pduType", .int 27),
   ("protocolFamily", .int 4), ("timestamp", .absent), ("length", .absent), ("pduStatus", .absent),
   ("padding", .absent), ("receiverState", .absent), ("padding1", .absent),
   ("receivedPower", .absent), ("transmitterEntityID", .absent), ("transmitterRadioId", .absent)]

/-- `ReceiverPdu.__init__`, /repo/opendis/dis7.py:6743-6757, statement by statement. -/
def ReceiverPdu.initHeap (self : Ref) (receiverState : Val := .sc (.int 0))
    (receivedPower : Val := .sc (.float 0x0000000000000000))
    (transmitterEntityID : Val := .sc .none) (transmitterRadioId : Val := .sc (.int 0))
    : H Unit := do
  RadioCommunicationsFamilyPdu.initHeap self
  H.setAttr self "receiverState" receiverState
  H.setAttr self "padding1" (.sc (.int 0))
  H.setAttr self "receivedPower" receivedPower
  H.setOr self "transmitterEntityID" transmitterEntityID EntityIdentifier.newHeap
  H.setAttr self "transmitterRadioId" transmitterRadioId

/-- `ReceiverPdu(...)`, /repo/opendis/dis7.py:6743-6757. -/
def ReceiverPdu.newHeap (receiverState : Val := .sc (.int 0))
    (receivedPower : Val := .sc (.float 0x0000000000000000))
    (transmitterEntityID : Val := .sc .none) (transmitterRadioId : Val := .sc (.int 0))
    : H Ref :=
  H.new ReceiverPdu.attrs fun self => ReceiverPdu.initHeap self receiverState receivedPower transmitterEntityID transmitterRadioId

/-- `ReceiverPdu.parse`, /repo/opendis/dis7.py:6768-6775, statement by statement. -/
def ReceiverPdu.parseHeap (self : Ref) : H Unit := do
  RadioCommunicationsFamilyPdu.parseHeap self
  let receiverState ← H.read read_unsigned_short
  H.setAttr self "receiverState" (.sc (.int receiverState))
  let padding1 ← H.read read_unsigned_short
  H.setAttr self "padding1" (.sc (.int padding1))
  let receivedPower ← H.read read_float
  H.setAttr self "receivedPower" (.sc (.float receivedPower))
  H.call self "transmitterEntityID" EntityIdentifier.parseHeap
  let transmitterRadioId ← H.read read_unsigned_short
  H.setAttr self "transmitterRadioId" (.sc (.int transmitterRadioId))
  return ()

/-- `ReceiverPdu.serialize`, /repo/opendis/dis7.py:6759-6766, statement by statement. -/
def ReceiverPdu.serializeHeap (self : Ref) : S Unit := do
  RadioCommunicationsFamilyPdu.serializeHeap self
  S.putInt self "receiverState" write_unsigned_short
  S.putInt self "padding1" write_unsigned_short
  S.putFloat self "receivedPower" write_float
  S.call self "transmitterEntityID" EntityIdentifier.serializeHeap
  S.putInt self "transmitterRadioId" write_unsigned_short

end Dis
