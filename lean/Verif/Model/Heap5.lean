import Verif.Model.Heap4

/-!
# Methods as programs on a memory of objects, part 5

Generated by `tools/genheap.py` from the Python source; each definition cites the lines it transliterates.
-/

set_option linter.unusedVariables false
set_option linter.unusedSimpArgs false

namespace Dis

/-- Attributes of a `UaPdu` object before `__init__` (/repo/opendis/dis7.py:6778-6870): class attributes have
values. -/
def UaPdu.attrs : List (String × Scalar) :=
  [("protocolVersion", .absent), ("exerciseID", .absent), ("pduType", .int 29),
   ("protocolFamily", .int 6), ("timestamp", .absent), ("length", .absent), ("pduStatus", .absent),
   ("padding", .absent), ("emittingEntityID", .absent), ("eventID", .absent),
   ("stateChangeIndicator", .absent), ("pad", .absent), ("passiveParameterIndex", .absent),
   ("propulsionPlantConfiguration", .absent), ("shaftRPMs", .absent), ("apaData", .absent),
   ("emitterSystems", .absent)]

/-- `UaPdu.__init__`, /repo/opendis/dis7.py:6787-6814, statement by statement. -/
def UaPdu.initHeap (self : Ref) (emittingEntityID : Val := .sc .none)
    (eventID : Val := .sc .none) (stateChangeIndicator : Val := .sc (.int 0))
    (passiveParameterIndex : Val := .sc (.int 0))
    (propulsionPlantConfiguration : Val := .sc (.int 0)) (shaftRPMs : Val := .sc .none)
    (apaData : Val := .sc .none) (emitterSystems : Val := .sc .none) : H Unit := do
  DistributedEmissionsFamilyPdu.initHeap self
  H.setOr self "emittingEntityID" emittingEntityID EntityIdentifier.newHeap
  H.setOr self "eventID" eventID EventIdentifier.newHeap
  H.setAttr self "stateChangeIndicator" stateChangeIndicator
  H.setAttr self "pad" (.sc (.int 0))
  H.setAttr self "passiveParameterIndex" passiveParameterIndex
  H.setAttr self "propulsionPlantConfiguration" propulsionPlantConfiguration
  H.setOr self "shaftRPMs" shaftRPMs (H.alloc (.list []))
  H.setOr self "apaData" apaData (H.alloc (.list []))
  H.setOr self "emitterSystems" emitterSystems (H.alloc (.list []))

/-- `UaPdu(...)`, /repo/opendis/dis7.py:6787-6814. -/
def UaPdu.newHeap (emittingEntityID : Val := .sc .none) (eventID : Val := .sc .none)
    (stateChangeIndicator : Val := .sc (.int 0)) (passiveParameterIndex : Val := .sc (.int 0))
    (propulsionPlantConfiguration : Val := .sc (.int 0)) (shaftRPMs : Val := .sc .none)
    (apaData : Val := .sc .none) (emitterSystems : Val := .sc .none) : H Ref :=
  H.new UaPdu.attrs fun self => UaPdu.initHeap self emittingEntityID eventID stateChangeIndicator passiveParameterIndex propulsionPlantConfiguration shaftRPMs apaData emitterSystems

/-- `UaPdu.parse`, /repo/opendis/dis7.py:6847-6870, statement by statement. -/
def UaPdu.parseHeap (self : Ref) : H Unit := do
  DistributedEmissionsFamilyPdu.parseHeap self
  H.call self "emittingEntityID" EntityIdentifier.parseHeap
  H.call self "eventID" EventIdentifier.parseHeap
  let stateChangeIndicator ← H.read read_byte
  H.setAttr self "stateChangeIndicator" (.sc (.int stateChangeIndicator))
  let pad ← H.read read_byte
  H.setAttr self "pad" (.sc (.int pad))
  let passiveParameterIndex ← H.read read_unsigned_short
  H.setAttr self "passiveParameterIndex" (.sc (.int passiveParameterIndex))
  let propulsionPlantConfiguration ← H.read read_unsigned_byte
  H.setAttr self "propulsionPlantConfiguration" (.sc (.int propulsionPlantConfiguration))
  let numberOfShafts ← H.read read_unsigned_byte
  let numberOfAPAs ← H.read read_unsigned_byte
  let numberOfUAEmitterSystems ← H.read read_unsigned_byte
  H.appendReads numberOfShafts.toNat (R.throw .nameError : R Int) .int self "shaftRPMs"
  H.appendReads numberOfAPAs.toNat (R.throw .nameError : R Int) .int self "apaData"
  H.appendReads numberOfUAEmitterSystems.toNat (R.throw .nameError : R Int) .int self "emitterSystems"
  return ()

/-- `UaPdu.serialize`, /repo/opendis/dis7.py:6828-6845, statement by statement. -/
def UaPdu.serializeHeap (self : Ref) : S Unit := do
  DistributedEmissionsFamilyPdu.serializeHeap self
  S.call self "emittingEntityID" EntityIdentifier.serializeHeap
  S.call self "eventID" EventIdentifier.serializeHeap
  S.putInt self "stateChangeIndicator" write_byte
  S.putInt self "pad" write_byte
  S.putInt self "passiveParameterIndex" write_unsigned_short
  S.putInt self "propulsionPlantConfiguration" write_unsigned_byte
  S.putLen self "shaftRPMs" write_unsigned_byte
  S.putLen self "apaData" write_unsigned_byte
  S.putLen self "emitterSystems" write_unsigned_byte
  S.each self "shaftRPMs" fun _ => S.throw .attributeError
  S.each self "apaData" fun _ => S.throw .attributeError
  S.each self "emitterSystems" fun _ => S.throw .attributeError

/-- Attributes of a `SignalPdu` object before `__init__` (/repo/opendis/dis7.py:6957-7015): class attributes have
values. -/
def SignalPdu.attrs : List (String × Scalar) :=
  [("protocolVersion", .absent), ("exerciseID", .absent), ("pduType", .int 26),
   ("protocolFamily", .int 4), ("timestamp", .absent), ("length", .absent), ("pduStatus", .absent),
   ("padding", .absent), ("entityID", .absent), ("radioID", .absent), ("encodingScheme", .absent),
   ("tdlType", .absent), ("sampleRate", .absent), ("samples", .absent), ("data", .absent)]

/-- `SignalPdu.__init__`, /repo/opendis/dis7.py:6966-6982, statement by statement. -/
def SignalPdu.initHeap (self : Ref) (entityID : Val := .sc .none)
    (radioID : Val := .sc (.int 0)) (encodingScheme : Val := .sc (.int 0))
    (tdlType : Val := .sc (.int 0)) (sampleRate : Val := .sc (.int 0))
    (samples : Val := .sc (.int 0)) (data : Val := .sc .none) : H Unit := do
  RadioCommunicationsFamilyPdu.initHeap self
  H.setOr self "entityID" entityID EntityIdentifier.newHeap
  H.setAttr self "radioID" radioID
  H.setAttr self "encodingScheme" encodingScheme
  H.setAttr self "tdlType" tdlType
  H.setAttr self "sampleRate" sampleRate
  H.setAttr self "samples" samples
  H.setOr self "data" data (H.alloc (.list []))

/-- `SignalPdu(...)`, /repo/opendis/dis7.py:6966-6982. -/
def SignalPdu.newHeap (entityID : Val := .sc .none) (radioID : Val := .sc (.int 0))
    (encodingScheme : Val := .sc (.int 0)) (tdlType : Val := .sc (.int 0))
    (sampleRate : Val := .sc (.int 0)) (samples : Val := .sc (.int 0)) (data : Val := .sc .none)
    : H Ref :=
  H.new SignalPdu.attrs fun self => SignalPdu.initHeap self entityID radioID encodingScheme tdlType sampleRate samples data

/-- `SignalPdu.parse`, /repo/opendis/dis7.py:7003-7015, statement by statement. -/
def SignalPdu.parseHeap (self : Ref) : H Unit := do
  RadioCommunicationsFamilyPdu.parseHeap self
  H.call self "entityID" EntityIdentifier.parseHeap
  let radioID ← H.read read_unsigned_short
  H.setAttr self "radioID" (.sc (.int radioID))
  let encodingScheme ← H.read read_unsigned_short
  H.setAttr self "encodingScheme" (.sc (.int encodingScheme))
  let tdlType ← H.read read_unsigned_short
  H.setAttr self "tdlType" (.sc (.int tdlType))
  let sampleRate ← H.read read_unsigned_int
  H.setAttr self "sampleRate" (.sc (.int sampleRate))
  let dataLength ← H.read read_unsigned_short
  let samples ← H.read read_unsigned_short
  H.setAttr self "samples" (.sc (.int samples))
  H.appendReads (dataLength / 8).toNat read_unsigned_byte .int self "data"
  return ()

/-- `SignalPdu.serialize`, /repo/opendis/dis7.py:6990-7001, statement by statement. -/
def SignalPdu.serializeHeap (self : Ref) : S Unit := do
  RadioCommunicationsFamilyPdu.serializeHeap self
  S.call self "entityID" EntityIdentifier.serializeHeap
  S.putInt self "radioID" write_unsigned_short
  S.putInt self "encodingScheme" write_unsigned_short
  S.putInt self "tdlType" write_unsigned_short
  S.putInt self "sampleRate" write_unsigned_int
  S.putLen self "data" fun n => write_unsigned_short (n * 8)
  S.putInt self "samples" write_unsigned_short
  S.eachInt self "data" write_unsigned_byte

/-- Attributes of a `RemoveEntityReliablePdu` object before `__init__` (/repo/opendis/dis7.py:7018-7049): class attributes have
values. -/
def RemoveEntityReliablePdu.attrs : List (String × Scalar) :=
  [("protocolVersion", .absent), ("exerciseID", .absent), ("pduType", .int 52),
   ("protocolFamily", .int 10), ("timestamp", .absent), ("length", .absent), ("pduStatus", .absent),
   ("padding", .absent), ("originatingEntityID", .absent), ("receivingEntityID", .absent),
   ("requiredReliabilityService", .absent), ("pad1", .absent), ("pad2", .absent),
   ("requestID", .absent)]

/-- `RemoveEntityReliablePdu.__init__`, /repo/opendis/dis7.py:7025-7033, statement by statement. -/
def RemoveEntityReliablePdu.initHeap (self : Ref)
    (requiredReliabilityService : Val := .sc (.int 0)) (requestID : Val := .sc (.int 0))
    : H Unit := do
  SimulationManagementWithReliabilityFamilyPdu.initHeap self
  H.setAttr self "requiredReliabilityService" requiredReliabilityService
  H.setAttr self "pad1" (.sc (.int 0))
  H.setAttr self "pad2" (.sc (.int 0))
  H.setAttr self "requestID" requestID

/-- `RemoveEntityReliablePdu(...)`, /repo/opendis/dis7.py:7025-7033. -/
def RemoveEntityReliablePdu.newHeap (requiredReliabilityService : Val := .sc (.int 0))
    (requestID : Val := .sc (.int 0)) : H Ref :=
  H.new RemoveEntityReliablePdu.attrs fun self => RemoveEntityReliablePdu.initHeap self requiredReliabilityService requestID

/-- `RemoveEntityReliablePdu.parse`, /repo/opendis/dis7.py:7043-7049, statement by statement. -/
def RemoveEntityReliablePdu.parseHeap (self : Ref) : H Unit := do
  SimulationManagementWithReliabilityFamilyPdu.parseHeap self
  let requiredReliabilityService ← H.read read_unsigned_byte
  H.setAttr self "requiredReliabilityService" (.sc (.int requiredReliabilityService))
  let pad1 ← H.read read_unsigned_short
  H.setAttr self "pad1" (.sc (.int pad1))
  let pad2 ← H.read read_unsigned_byte
  H.setAttr self "pad2" (.sc (.int pad2))
  let requestID ← H.read read_unsigned_int
  H.setAttr self "requestID" (.sc (.int requestID))
  return ()

/-- `RemoveEntityReliablePdu.serialize`, /repo/opendis/dis7.py:7035-7041, statement by statement. -/
def RemoveEntityReliablePdu.serializeHeap (self : Ref) : S Unit := do
  SimulationManagementWithReliabilityFamilyPdu.serializeHeap self
  S.putInt self "requiredReliabilityService" write_unsigned_byte
  S.putInt self "pad1" write_unsigned_short
  S.putInt self "pad2" write_unsigned_byte
  S.putInt self "requestID" write_unsigned_int

/-- Attributes of a `SeesPdu` object before `__init__` (/repo/opendis/dis7.py:7052-7119): class attributes have
values. -/
def SeesPdu.attrs : List (String × Scalar) :=
  [("protocolVersion", .absent), ("exerciseID", .absent), ("pduType", .int 30),
   ("protocolFamily", .int 6), ("timestamp", .absent), ("length", .absent), ("pduStatus", .absent),
   ("padding", .absent), ("orginatingEntityID", .absent),
   ("infraredSignatureRepresentationIndex", .absent),
   ("acousticSignatureRepresentationIndex", .absent),
   ("radarCrossSectionSignatureRepresentationIndex", .absent), ("propulsionSystemData", .absent),
   ("vectoringSystemData", .absent)]

/-- `SeesPdu.__init__`, /repo/opendis/dis7.py:7059-7072, statement by statement. -/
def SeesPdu.initHeap (self : Ref) (originatingEntityID : Val := .sc .none)
    (infraredSignatureRepresentationIndex : Val := .sc (.int 0))
    (acousticSignatureRepresentationIndex : Val := .sc (.int 0))
    (radarCrossSectionSignatureRepresentationIndex : Val := .sc (.int 0))
    (propulsionSystemData : Val := .sc .none) (vectoringSystemData : Val := .sc .none) : H Unit := do
  DistributedEmissionsFamilyPdu.initHeap self
  H.setOr self "orginatingEntityID" originatingEntityID EntityIdentifier.newHeap
  H.setAttr self "infraredSignatureRepresentationIndex" infraredSignatureRepresentationIndex
  H.setAttr self "acousticSignatureRepresentationIndex" acousticSignatureRepresentationIndex
  H.setAttr self "radarCrossSectionSignatureRepresentationIndex" radarCrossSectionSignatureRepresentationIndex
  H.setOr self "propulsionSystemData" propulsionSystemData (H.alloc (.list []))
  H.setOr self "vectoringSystemData" vectoringSystemData (H.alloc (.list []))

/-- `SeesPdu(...)`, /repo/opendis/dis7.py:7059-7072. -/
def SeesPdu.newHeap (originatingEntityID : Val := .sc .none)
    (infraredSignatureRepresentationIndex : Val := .sc (.int 0))
    (acousticSignatureRepresentationIndex : Val := .sc (.int 0))
    (radarCrossSectionSignatureRepresentationIndex : Val := .sc (.int 0))
    (propulsionSystemData : Val := .sc .none) (vectoringSystemData : Val := .sc .none) : H Ref :=
  H.new SeesPdu.attrs fun self => SeesPdu.initHeap self originatingEntityID infraredSignatureRepresentationIndex acousticSignatureRepresentationIndex radarCrossSectionSignatureRepresentationIndex propulsionSystemData vectoringSystemData

/-- `SeesPdu.parse`, /repo/opendis/dis7.py:7099-7119, statement by statement. -/
def SeesPdu.parseHeap (self : Ref) : H Unit := do
  DistributedEmissionsFamilyPdu.parseHeap self
  H.call self "orginatingEntityID" EntityIdentifier.parseHeap
  let infraredSignatureRepresentationIndex ← H.read read_unsigned_short
  H.setAttr self "infraredSignatureRepresentationIndex" (.sc (.int infraredSignatureRepresentationIndex))
  let acousticSignatureRepresentationIndex ← H.read read_unsigned_short
  H.setAttr self "acousticSignatureRepresentationIndex" (.sc (.int acousticSignatureRepresentationIndex))
  let radarCrossSectionSignatureRepresentationIndex ← H.read read_unsigned_short
  H.setAttr self "radarCrossSectionSignatureRepresentationIndex" (.sc (.int radarCrossSectionSignatureRepresentationIndex))
  let numberOfPropulsionSystems ← H.read read_unsigned_short
  let numberOfVectoringNozzleSystems ← H.read read_unsigned_short
  H.appendReads numberOfPropulsionSystems.toNat (R.throw .nameError : R Int) .int self "propulsionSystemData"
  H.appendReads numberOfVectoringNozzleSystems.toNat (R.throw .nameError : R Int) .int self "vectoringSystemData"
  return ()

/-- `SeesPdu.serialize`, /repo/opendis/dis7.py:7082-7097, statement by statement. -/
def SeesPdu.serializeHeap (self : Ref) : S Unit := do
  DistributedEmissionsFamilyPdu.serializeHeap self
  S.call self "orginatingEntityID" EntityIdentifier.serializeHeap
  S.putInt self "infraredSignatureRepresentationIndex" write_unsigned_short
  S.putInt self "acousticSignatureRepresentationIndex" write_unsigned_short
  S.putInt self "radarCrossSectionSignatureRepresentationIndex" write_unsigned_short
  S.putLen self "propulsionSystemData" write_unsigned_short
  S.putLen self "vectoringSystemData" write_unsigned_short
  S.each self "propulsionSystemData" PropulsionSystemData.serializeHeap
  S.each self "vectoringSystemData" VectoringNozzleSystem.serializeHeap

/-- Attributes of a `CreateEntityReliablePdu` object before `__init__` (/repo/opendis/dis7.py:7122-7153): class attributes have
values. -/
def CreateEntityReliablePdu.attrs : List (String × Scalar) :=
  [("protocolVersion", .absent), ("exerciseID", .absent), ("pduType", .int 51),
   ("protocolFamily", .int 10), ("timestamp", .absent), ("length", .absent), ("pduStatus", .absent),
   ("padding", .absent), ("originatingEntityID", .absent), ("receivingEntityID", .absent),
   ("requiredReliabilityService", .absent), ("pad1", .absent), ("pad2", .absent),
   ("requestID", .absent)]

/-- `CreateEntityReliablePdu.__init__`, /repo/opendis/dis7.py:7129-7137, statement by statement. -/
def CreateEntityReliablePdu.initHeap (self : Ref)
    (requiredReliabilityService : Val := .sc (.int 0)) (requestID : Val := .sc (.int 0))
    : H Unit := do
  SimulationManagementWithReliabilityFamilyPdu.initHeap self
  H.setAttr self "requiredReliabilityService" requiredReliabilityService
  H.setAttr self "pad1" (.sc (.int 0))
  H.setAttr self "pad2" (.sc (.int 0))
  H.setAttr self "requestID" requestID

/-- `CreateEntityReliablePdu(...)`, /repo/opendis/dis7.py:7129-7137. -/
def CreateEntityReliablePdu.newHeap (requiredReliabilityService : Val := .sc (.int 0))
    (requestID : Val := .sc (.int 0)) : H Ref :=
  H.new CreateEntityReliablePdu.attrs fun self => CreateEntityReliablePdu.initHeap self requiredReliabilityService requestID

/-- `CreateEntityReliablePdu.parse`, /repo/opendis/dis7.py:7147-7153, statement by statement. -/
def CreateEntityReliablePdu.parseHeap (self : Ref) : H Unit := do
  SimulationManagementWithReliabilityFamilyPdu.parseHeap self
  let requiredReliabilityService ← H.read read_unsigned_byte
  H.setAttr self "requiredReliabilityService" (.sc (.int requiredReliabilityService))
  let pad1 ← H.read read_unsigned_short
  H.setAttr self "pad1" (.sc (.int pad1))
  let pad2 ← H.read read_unsigned_byte
  H.setAttr self "pad2" (.sc (.int pad2))
  let requestID ← H.read read_unsigned_int
  H.setAttr self "requestID" (.sc (.int requestID))
  return ()

/-- `CreateEntityReliablePdu.serialize`, /repo/opendis/dis7.py:7139-7145, statement by statement. -/
def CreateEntityReliablePdu.serializeHeap (self : Ref) : S Unit := do
  SimulationManagementWithReliabilityFamilyPdu.serializeHeap self
  S.putInt self "requiredReliabilityService" write_unsigned_byte
  S.putInt self "pad1" write_unsigned_short
  S.putInt self "pad2" write_unsigned_byte
  S.putInt self "requestID" write_unsigned_int

/-- Attributes of a `StopFreezeReliablePdu` object before `__init__` (/repo/opendis/dis7.py:7156-7199): class attributes have
values. -/
def StopFreezeReliablePdu.attrs : List (String × Scalar) :=
  [("protocolVersion", .absent), ("exerciseID", .absent), ("pduType", .int 54),
   ("protocolFamily", .int 10), ("timestamp", .absent), ("length", .absent), ("pduStatus", .absent),
   ("padding", .absent), ("originatingEntityID", .absent), ("receivingEntityID", .absent),
   ("realWorldTime", .absent), ("reason", .absent), ("frozenBehavior", .absent),
   ("requiredReliablityService", .absent), ("pad1", .absent), ("requestID", .absent)]

/-- `StopFreezeReliablePdu.__init__`, /repo/opendis/dis7.py:7163-7179, statement by statement. -/
def StopFreezeReliablePdu.initHeap (self : Ref) (realWorldTime : Val := .sc .none)
    (reason : Val := .sc (.int 0)) (frozenBehavior : Val := .sc (.int 0))
    (requiredReliabilityService : Val := .sc (.int 0)) (requestID : Val := .sc (.int 0))
    : H Unit := do
  SimulationManagementWithReliabilityFamilyPdu.initHeap self
  H.setOr self "realWorldTime" realWorldTime ClockTime.newHeap
  H.setAttr self "reason" reason
  H.setAttr self "frozenBehavior" frozenBehavior
  H.setAttr self "requiredReliablityService" requiredReliabilityService
  H.setAttr self "pad1" (.sc (.int 0))
  H.setAttr self "requestID" requestID

/-- `StopFreezeReliablePdu(...)`, /repo/opendis/dis7.py:7163-7179. -/
def StopFreezeReliablePdu.newHeap (realWorldTime : Val := .sc .none)
    (reason : Val := .sc (.int 0)) (frozenBehavior : Val := .sc (.int 0))
    (requiredReliabilityService : Val := .sc (.int 0)) (requestID : Val := .sc (.int 0))
    : H Ref :=
  H.new StopFreezeReliablePdu.attrs fun self => StopFreezeReliablePdu.initHeap self realWorldTime reason frozenBehavior requiredReliabilityService requestID

/-- `StopFreezeReliablePdu.parse`, /repo/opendis/dis7.py:7191-7199, statement by statement. -/
def StopFreezeReliablePdu.parseHeap (self : Ref) : H Unit := do
  SimulationManagementWithReliabilityFamilyPdu.parseHeap self
  H.call self "realWorldTime" ClockTime.parseHeap
  let reason ← H.read read_unsigned_byte
  H.setAttr self "reason" (.sc (.int reason))
  let frozenBehavior ← H.read read_unsigned_byte
  H.setAttr self "frozenBehavior" (.sc (.int frozenBehavior))
  let requiredReliablityService ← H.read read_unsigned_byte
  H.setAttr self "requiredReliablityService" (.sc (.int requiredReliablityService))
  let pad1 ← H.read read_unsigned_byte
  H.setAttr self "pad1" (.sc (.int pad1))
  let requestID ← H.read read_unsigned_int
  H.setAttr self "requestID" (.sc (.int requestID))
  return ()

/-- `StopFreezeReliablePdu.serialize`, /repo/opendis/dis7.py:7181-7189, statement by statement. -/
def StopFreezeReliablePdu.serializeHeap (self : Ref) : S Unit := do
  SimulationManagementWithReliabilityFamilyPdu.serializeHeap self
  S.call self "realWorldTime" ClockTime.serializeHeap
  S.putInt self "reason" write_unsigned_byte
  S.putInt self "frozenBehavior" write_unsigned_byte
  S.putInt self "requiredReliablityService" write_unsigned_byte
  S.putInt self "pad1" write_unsigned_byte
  S.putInt self "requestID" write_unsigned_int

/-- Attributes of a `EventReportReliablePdu` object before `__init__` (/repo/opendis/dis7.py:7202-7250): class attributes have
values. -/
def EventReportReliablePdu.attrs : List (String × Scalar) :=
  [("protocolVersion", .absent), ("exerciseID", .absent), ("pduType", .int 61),
   ("protocolFamily", .int 10), ("timestamp", .absent), ("length", .absent), ("pduStatus", .absent),
   ("padding", .absent), ("originatingEntityID", .absent), ("receivingEntityID", .absent),
   ("eventType", .absent), ("pad1", .absent), ("_datums", .absent)]

/-- `EventReportReliablePdu.__init__`, /repo/opendis/dis7.py:7210-7220, statement by statement. -/
def EventReportReliablePdu.initHeap (self : Ref) (eventType : Val := .sc (.int 0))
    (fixedDatumRecords : Val := .sc .none) (variableDatumRecords : Val := .sc .none) : H Unit := do
  SimulationManagementWithReliabilityFamilyPdu.initHeap self
  H.setAttr self "eventType" eventType
  H.setAttr self "pad1" (.sc (.int 0))
  H.setNew self "_datums" (do
      let fixedDatumRecords ← H.orNew fixedDatumRecords (H.alloc (.list []))
      let variableDatumRecords ← H.orNew variableDatumRecords (H.alloc (.list []))
      DatumSpecification.newHeap fixedDatumRecords variableDatumRecords)

/-- `EventReportReliablePdu(...)`, /repo/opendis/dis7.py:7210-7220. -/
def EventReportReliablePdu.newHeap (eventType : Val := .sc (.int 0))
    (fixedDatumRecords : Val := .sc .none) (variableDatumRecords : Val := .sc .none) : H Ref :=
  H.new EventReportReliablePdu.attrs fun self => EventReportReliablePdu.initHeap self eventType fixedDatumRecords variableDatumRecords

/-- `EventReportReliablePdu.parse`, /repo/opendis/dis7.py:7245-7250, statement by statement. -/
def EventReportReliablePdu.parseHeap (self : Ref) : H Unit := do
  SimulationManagementWithReliabilityFamilyPdu.parseHeap self
  let eventType ← H.read read_unsigned_short
  H.setAttr self "eventType" (.sc (.int eventType))
  let pad1 ← H.read read_unsigned_int
  H.setAttr self "pad1" (.sc (.int pad1))
  H.call self "_datums" DatumSpecification.parseHeap
  return ()

/-- `EventReportReliablePdu.serialize`, /repo/opendis/dis7.py:7238-7243, statement by statement. -/
def EventReportReliablePdu.serializeHeap (self : Ref) : S Unit := do
  SimulationManagementWithReliabilityFamilyPdu.serializeHeap self
  S.putInt self "eventType" write_unsigned_short
  S.putInt self "pad1" write_unsigned_int
  S.call self "_datums" DatumSpecification.serializeHeap

/-- Attributes of a `MinefieldResponseNackPdu` object before `__init__` (/repo/opendis/dis7.py:7253-7299): class attributes have
values. -/
def MinefieldResponseNackPdu.attrs : List (String × Scalar) :=
  [("protocolVersion", .absent), ("exerciseID", .absent), ("pduType", .int 40),
   ("protocolFamily", .int 8), ("timestamp", .absent), ("length", .absent), ("pduStatus", .absent),
   ("padding", .absent), ("minefieldID", .absent), ("requestingEntityID", .absent),
   ("requestID", .absent), ("missingPduSequenceNumbers", .absent)]

/-- `MinefieldResponseNackPdu.__init__`, /repo/opendis/dis7.py:7260-7271, statement by statement. -/
def MinefieldResponseNackPdu.initHeap (self : Ref) (minefieldID : Val := .sc .none)
    (requestingEntityID : Val := .sc .none) (requestID : Val := .sc (.int 0))
    (missingPduSequenceNumbers : Val := .sc .none) : H Unit := do
  MinefieldFamilyPdu.initHeap self
  H.setOr self "minefieldID" minefieldID EntityIdentifier.newHeap
  H.setOr self "requestingEntityID" requestingEntityID EntityIdentifier.newHeap
  H.setAttr self "requestID" requestID
  H.setOr self "missingPduSequenceNumbers" missingPduSequenceNumbers (H.alloc (.list []))

/-- `MinefieldResponseNackPdu(...)`, /repo/opendis/dis7.py:7260-7271. -/
def MinefieldResponseNackPdu.newHeap (minefieldID : Val := .sc .none)
    (requestingEntityID : Val := .sc .none) (requestID : Val := .sc (.int 0))
    (missingPduSequenceNumbers : Val := .sc .none) : H Ref :=
  H.new MinefieldResponseNackPdu.attrs fun self => MinefieldResponseNackPdu.initHeap self minefieldID requestingEntityID requestID missingPduSequenceNumbers

/-- `MinefieldResponseNackPdu.parse`, /repo/opendis/dis7.py:7288-7299, statement by statement. -/
def MinefieldResponseNackPdu.parseHeap (self : Ref) : H Unit := do
  MinefieldFamilyPdu.parseHeap self
  H.call self "minefieldID" EntityIdentifier.parseHeap
  H.call self "requestingEntityID" EntityIdentifier.parseHeap
  let requestID ← H.read read_unsigned_byte
  H.setAttr self "requestID" (.sc (.int requestID))
  let numberOfMissingPdus ← H.read read_unsigned_byte
  H.appendReads numberOfMissingPdus.toNat (R.throw .nameError : R Int) .int self "missingPduSequenceNumbers"
  return ()

/-- `MinefieldResponseNackPdu.serialize`, /repo/opendis/dis7.py:7278-7286, statement by statement. -/
def MinefieldResponseNackPdu.serializeHeap (self : Ref) : S Unit := do
  MinefieldFamilyPdu.serializeHeap self
  S.call self "minefieldID" EntityIdentifier.serializeHeap
  S.call self "requestingEntityID" EntityIdentifier.serializeHeap
  S.putInt self "requestID" write_unsigned_byte
  S.putLen self "missingPduSequenceNumbers" write_unsigned_byte
  S.each self "missingPduSequenceNumbers" fun _ => S.throw .attributeError

/-- Attributes of a `ActionResponseReliablePdu` object before `__init__` (/repo/opendis/dis7.py:7302-7349): class attributes have
values. -/
def ActionResponseReliablePdu.attrs : List (String × Scalar) :=
  [("protocolVersion", .absent), ("exerciseID", .absent), ("pduType", .int 57),
   ("protocolFamily", .int 10), ("timestamp", .absent), ("length", .absent), ("pduStatus", .absent),
   ("padding", .absent), ("originatingEntityID", .absent), ("receivingEntityID", .absent),
   ("requestID", .absent), ("responseStatus", .absent), ("_datums", .absent)]

/-- `ActionResponseReliablePdu.__init__`, /repo/opendis/dis7.py:7309-7319, statement by statement. -/
def ActionResponseReliablePdu.initHeap (self : Ref) (requestID : Val := .sc (.int 0))
    (responseStatus : Val := .sc (.int 0)) (fixedDatumRecords : Val := .sc .none)
    (variableDatumRecords : Val := .sc .none) : H Unit := do
  SimulationManagementWithReliabilityFamilyPdu.initHeap self
  H.setAttr self "requestID" requestID
  H.setAttr self "responseStatus" responseStatus
  H.setNew self "_datums" (do
      let fixedDatumRecords ← H.orNew fixedDatumRecords (H.alloc (.list []))
      let variableDatumRecords ← H.orNew variableDatumRecords (H.alloc (.list []))
      DatumSpecification.newHeap fixedDatumRecords variableDatumRecords)

/-- `ActionResponseReliablePdu(...)`, /repo/opendis/dis7.py:7309-7319. -/
def ActionResponseReliablePdu.newHeap (requestID : Val := .sc (.int 0))
    (responseStatus : Val := .sc (.int 0)) (fixedDatumRecords : Val := .sc .none)
    (variableDatumRecords : Val := .sc .none) : H Ref :=
  H.new ActionResponseReliablePdu.attrs fun self => ActionResponseReliablePdu.initHeap self requestID responseStatus fixedDatumRecords variableDatumRecords

/-- `ActionResponseReliablePdu.parse`, /repo/opendis/dis7.py:7344-7349, statement by statement. -/
def ActionResponseReliablePdu.parseHeap (self : Ref) : H Unit := do
  SimulationManagementWithReliabilityFamilyPdu.parseHeap self
  let requestID ← H.read read_unsigned_int
  H.setAttr self "requestID" (.sc (.int requestID))
  let responseStatus ← H.read read_unsigned_int
  H.setAttr self "responseStatus" (.sc (.int responseStatus))
  H.call self "_datums" DatumSpecification.parseHeap
  return ()

/-- `ActionResponseReliablePdu.serialize`, /repo/opendis/dis7.py:7337-7342, statement by statement. -/
def ActionResponseReliablePdu.serializeHeap (self : Ref) : S Unit := do
  SimulationManagementWithReliabilityFamilyPdu.serializeHeap self
  S.putInt self "requestID" write_unsigned_int
  S.putInt self "responseStatus" write_unsigned_int
  S.call self "_datums" DatumSpecification.serializeHeap

/-- Attributes of a `IsPartOfPdu` object before `__init__` (/repo/opendis/dis7.py:7352-7397): class attributes have
values. -/
def IsPartOfPdu.attrs : List (String × Scalar) :=
  [("protocolVersion", .absent), ("exerciseID", .absent), ("pduType", .int 36),
   ("protocolFamily", .int 7), ("timestamp", .absent), ("length", .absent), ("pduStatus", .absent),
   ("padding", .absent), ("orginatingEntityID", .absent), ("receivingEntityID", .absent),
   ("relationship", .absent), ("partLocation", .absent), ("namedLocationID", .absent),
   ("partEntityType", .absent)]

/-- `IsPartOfPdu.__init__`, /repo/opendis/dis7.py:7360-7377, statement by statement. -/
def IsPartOfPdu.initHeap (self : Ref) (originatingEntityID : Val := .sc .none)
    (receivingEntityID : Val := .sc .none) (relationship : Val := .sc .none)
    (partLocation : Val := .sc .none) (namedLocationID : Val := .sc .none)
    (partEntityType : Val := .sc .none) : H Unit := do
  EntityManagementFamilyPdu.initHeap self
  H.setOr self "orginatingEntityID" originatingEntityID EntityIdentifier.newHeap
  H.setOr self "receivingEntityID" receivingEntityID EntityIdentifier.newHeap
  H.setOr self "relationship" relationship Relationship.newHeap
  H.setOr self "partLocation" partLocation Vector3Float.newHeap
  H.setOr self "namedLocationID" namedLocationID NamedLocationIdentification.newHeap
  H.setOr self "partEntityType" partEntityType EntityType.newHeap

/-- `IsPartOfPdu(...)`, /repo/opendis/dis7.py:7360-7377. -/
def IsPartOfPdu.newHeap (originatingEntityID : Val := .sc .none)
    (receivingEntityID : Val := .sc .none) (relationship : Val := .sc .none)
    (partLocation : Val := .sc .none) (namedLocationID : Val := .sc .none)
    (partEntityType : Val := .sc .none) : H Ref :=
  H.new IsPartOfPdu.attrs fun self => IsPartOfPdu.initHeap self originatingEntityID receivingEntityID relationship partLocation namedLocationID partEntityType

/-- `IsPartOfPdu.parse`, /repo/opendis/dis7.py:7389-7397, statement by statement. -/
def IsPartOfPdu.parseHeap (self : Ref) : H Unit := do
  EntityManagementFamilyPdu.parseHeap self
  H.call self "orginatingEntityID" EntityIdentifier.parseHeap
  H.call self "receivingEntityID" EntityIdentifier.parseHeap
  H.call self "relationship" Relationship.parseHeap
  H.call self "partLocation" Vector3Float.parseHeap
  H.call self "namedLocationID" NamedLocationIdentification.parseHeap
  H.call self "partEntityType" EntityType.parseHeap
  return ()

/-- `IsPartOfPdu.serialize`, /repo/opendis/dis7.py:7379-7387, statement by statement. -/
def IsPartOfPdu.serializeHeap (self : Ref) : S Unit := do
  EntityManagementFamilyPdu.serializeHeap self
  S.call self "orginatingEntityID" EntityIdentifier.serializeHeap
  S.call self "receivingEntityID" EntityIdentifier.serializeHeap
  S.call self "relationship" Relationship.serializeHeap
  S.call self "partLocation" Vector3Float.serializeHeap
  S.call self "namedLocationID" NamedLocationIdentification.serializeHeap
  S.call self "partEntityType" EntityType.serializeHeap

/-- Attributes of a `AggregateStatePdu` object before `__init__` (/repo/opendis/dis7.py:7400-7537): class attributes have
values. -/
def AggregateStatePdu.attrs : List (String × Scalar) :=
  [("protocolVersion", .absent), ("exerciseID", .absent), ("pduType", .int 33),
   ("protocolFamily", .int 7), ("timestamp", .absent), ("length", .absent), ("pduStatus", .absent),
   ("padding", .absent), ("aggregateID", .absent), ("forceID", .absent),
   ("aggregateState", .absent), ("aggregateType", .absent), ("formation", .absent),
   ("aggregateMarking", .absent), ("dimensions", .absent), ("orientation", .absent),
   ("centerOfMass", .absent), ("velocity", .absent), ("aggregateIDs", .absent),
   ("entityIDs", .absent), ("silentAggregateSystems", .absent), ("silentEntitySystems", .absent),
   ("variableDatumRecords", .absent)]

/-- `AggregateStatePdu.__init__`, /repo/opendis/dis7.py:7409-7449, statement by statement. -/
def AggregateStatePdu.initHeap (self : Ref) (aggregateID : Val := .sc .none)
    (forceID : Val := .sc (.int 0)) (aggregateState : Val := .sc (.int 0))
    (aggregateType : Val := .sc .none) (formation : Val := .sc (.int 0))
    (aggregateMarking : Val := .sc .none) (dimensions : Val := .sc .none)
    (orientation : Val := .sc .none) (centerOfMass : Val := .sc .none)
    (velocity : Val := .sc .none) (aggregateIDs : Val := .sc .none)
    (entityIDs : Val := .sc .none) (silentAggregateSystems : Val := .sc .none)
    (silentEntitySystems : Val := .sc .none) (variableDatumRecords : Val := .sc .none) : H Unit := do
  EntityManagementFamilyPdu.initHeap self
  H.setOr self "aggregateID" aggregateID AggregateIdentifier.newHeap
  H.setAttr self "forceID" forceID
  H.setAttr self "aggregateState" aggregateState
  H.setOr self "aggregateType" aggregateType AggregateType.newHeap
  H.setAttr self "formation" formation
  H.setOr self "aggregateMarking" aggregateMarking AggregateMarking.newHeap
  H.setOr self "dimensions" dimensions Vector3Float.newHeap
  H.setOr self "orientation" orientation EulerAngles.newHeap
  H.setOr self "centerOfMass" centerOfMass Vector3Float.newHeap
  H.setOr self "velocity" velocity WorldCoordinates.newHeap
  H.setOr self "aggregateIDs" aggregateIDs (H.alloc (.list []))
  H.setOr self "entityIDs" entityIDs (H.alloc (.list []))
  H.setOr self "silentAggregateSystems" silentAggregateSystems (H.alloc (.list []))
  H.setOr self "silentEntitySystems" silentEntitySystems (H.alloc (.list []))
  H.setOr self "variableDatumRecords" variableDatumRecords (H.alloc (.list []))

/-- `AggregateStatePdu(...)`, /repo/opendis/dis7.py:7409-7449. -/
def AggregateStatePdu.newHeap (aggregateID : Val := .sc .none) (forceID : Val := .sc (.int 0))
    (aggregateState : Val := .sc (.int 0)) (aggregateType : Val := .sc .none)
    (formation : Val := .sc (.int 0)) (aggregateMarking : Val := .sc .none)
    (dimensions : Val := .sc .none) (orientation : Val := .sc .none)
    (centerOfMass : Val := .sc .none) (velocity : Val := .sc .none)
    (aggregateIDs : Val := .sc .none) (entityIDs : Val := .sc .none)
    (silentAggregateSystems : Val := .sc .none) (silentEntitySystems : Val := .sc .none)
    (variableDatumRecords : Val := .sc .none) : H Ref :=
  H.new AggregateStatePdu.attrs fun self => AggregateStatePdu.initHeap self aggregateID forceID aggregateState aggregateType formation aggregateMarking dimensions orientation centerOfMass velocity aggregateIDs entityIDs silentAggregateSystems silentEntitySystems variableDatumRecords

/-- `AggregateStatePdu.parse`, /repo/opendis/dis7.py:7500-7537, statement by statement. -/
def AggregateStatePdu.parseHeap (self : Ref) : H Unit := do
  EntityManagementFamilyPdu.parseHeap self
  H.call self "aggregateID" AggregateIdentifier.parseHeap
  let forceID ← H.read read_unsigned_byte
  H.setAttr self "forceID" (.sc (.int forceID))
  let aggregateState ← H.read read_unsigned_byte
  H.setAttr self "aggregateState" (.sc (.int aggregateState))
  H.call self "aggregateType" AggregateType.parseHeap
  let formation ← H.read read_unsigned_int
  H.setAttr self "formation" (.sc (.int formation))
  H.call self "aggregateMarking" AggregateMarking.parseHeap
  H.call self "dimensions" Vector3Float.parseHeap
  H.call self "orientation" EulerAngles.parseHeap
  H.call self "centerOfMass" Vector3Float.parseHeap
  H.call self "velocity" WorldCoordinates.parseHeap
  let numberOfAggregateIDs ← H.read read_unsigned_short
  let numberOfEntityIDs ← H.read read_unsigned_short
  let numberOfSilentAggregateSystems ← H.read read_unsigned_short
  let numberOfSilentEntitySystems ← H.read read_unsigned_short
  H.appendObjs numberOfAggregateIDs.toNat AggregateIdentifier.newHeap AggregateIdentifier.parseHeap self "aggregateIDs"
  H.appendObjs numberOfEntityIDs.toNat EntityIdentifier.newHeap EntityIdentifier.parseHeap self "entityIDs"
  H.appendObjs numberOfSilentAggregateSystems.toNat SilentAggregateSystem.newHeap SilentAggregateSystem.parseHeap self "silentAggregateSystems"
  H.appendObjs numberOfSilentEntitySystems.toNat SilentEntitySystem.newHeap SilentEntitySystem.parseHeap self "silentEntitySystems"
  let numberOfVariableDatumRecords ← H.read read_unsigned_int
  H.appendObjs numberOfVariableDatumRecords.toNat VariableDatum.newHeap VariableDatum.parseHeap self "variableDatumRecords"
  return ()

/-- `AggregateStatePdu.serialize`, /repo/opendis/dis7.py:7471-7498, statement by statement. -/
def AggregateStatePdu.serializeHeap (self : Ref) : S Unit := do
  EntityManagementFamilyPdu.serializeHeap self
  S.call self "aggregateID" AggregateIdentifier.serializeHeap
  S.putInt self "forceID" write_unsigned_byte
  S.putInt self "aggregateState" write_unsigned_byte
  S.call self "aggregateType" AggregateType.serializeHeap
  S.putInt self "formation" write_unsigned_int
  S.call self "aggregateMarking" AggregateMarking.serializeHeap
  S.call self "dimensions" Vector3Float.serializeHeap
  S.call self "orientation" EulerAngles.serializeHeap
  S.call self "centerOfMass" Vector3Float.serializeHeap
  S.call self "velocity" WorldCoordinates.serializeHeap
  S.putLen self "aggregateIDs" write_unsigned_short
  S.putLen self "entityIDs" write_unsigned_short
  S.putLen self "silentAggregateSystems" write_unsigned_short
  S.putLen self "silentEntitySystems" write_unsigned_short
  S.each self "aggregateIDs" AggregateIdentifier.serializeHeap
  S.each self "entityIDs" EntityIdentifier.serializeHeap
  S.each self "silentAggregateSystems" SilentAggregateSystem.serializeHeap
  S.each self "silentEntitySystems" SilentEntitySystem.serializeHeap
  S.putLen self "variableDatumRecords" write_unsigned_int
  S.each self "variableDatumRecords" VariableDatum.serializeHeap

end Dis
