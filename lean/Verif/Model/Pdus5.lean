import Verif.Model.Pdus4

/-!
# PDUs of `opendis/dis7.py`, part 5

Generated by `tools/gen.py` from the Python source; each definition cites the lines it transliterates.
-/

set_option linter.unusedVariables false

namespace Dis

/-- Attributes of a `FirePdu` object, /repo/opendis/dis7.py:6680-6733; default values are those of an
object made by `FirePdu()`, /repo/opendis/dis7.py:6688-6711. -/
structure FirePdu extends WarfareFamilyPdu where
  munitionExpendableID : EntityIdentifier := EntityIdentifier.init
  eventID : EventIdentifier := EventIdentifier.init
  fireMissionIndex : Int := 0
  location : WorldCoordinates := WorldCoordinates.init
  descriptor : MunitionDescriptor := MunitionDescriptor.init
  velocity : Vector3Float := Vector3Float.init
  range : F64 := 0x0000000000000000
  pduType := 2
  deriving DecidableEq

/-- Constructor `FirePdu(...)`, /repo/opendis/dis7.py:6688-6711. `x or T()` and `x or []` keep a given
value and replace `None` (absent) by a fresh one. -/
def FirePdu.init (munitionExpendableID : Option EntityIdentifier := none)
    (eventID : Option EventIdentifier := none) (fireMissionIndex : Int := 0)
    (location : Option WorldCoordinates := none) (descriptor : Option MunitionDescriptor := none)
    (velocity : Option Vector3Float := none) (range_ : F64 := 0x0000000000000000) : FirePdu :=
  { munitionExpendableID := munitionExpendableID.getD EntityIdentifier.init,
    eventID := eventID.getD EventIdentifier.init,
    fireMissionIndex := fireMissionIndex,
    location := location.getD WorldCoordinates.init,
    descriptor := descriptor.getD MunitionDescriptor.init,
    velocity := velocity.getD Vector3Float.init,
    range := range_ }

/-- `FirePdu.serialize`, /repo/opendis/dis7.py:6713-6722. -/
def FirePdu.serialize (self : FirePdu) : W Unit := do
  WarfareFamilyPdu.serialize self.toWarfareFamilyPdu
  EntityIdentifier.serialize self.munitionExpendableID
  EventIdentifier.serialize self.eventID
  write_unsigned_int self.fireMissionIndex
  WorldCoordinates.serialize self.location
  MunitionDescriptor.serialize self.descriptor
  Vector3Float.serialize self.velocity
  write_float self.range

/-- `FirePdu.parse`, /repo/opendis/dis7.py:6724-6733; returns the updated object. -/
def FirePdu.parse (self : FirePdu) : R FirePdu := do
  let base ← WarfareFamilyPdu.parse self.toWarfareFamilyPdu
  let munitionExpendableID ← EntityIdentifier.parse self.munitionExpendableID
  let eventID ← EventIdentifier.parse self.eventID
  let fireMissionIndex ← read_unsigned_int
  let location ← WorldCoordinates.parse self.location
  let descriptor ← MunitionDescriptor.parse self.descriptor
  let velocity ← Vector3Float.parse self.velocity
  let range ← read_float
  return { self with
    toWarfareFamilyPdu := base,
    munitionExpendableID := munitionExpendableID,
    eventID := eventID,
    fireMissionIndex := fireMissionIndex,
    location := location,
    descriptor := descriptor,
    velocity := velocity,
    range := range }

/-- Attributes of a `ReceiverPdu` object, /repo/opendis/dis7.py:6736-6775; default values are those of an
object made by `ReceiverPdu()`, /repo/opendis/dis7.py:6743-6757. -/
structure ReceiverPdu extends RadioCommunicationsFamilyPdu where
  receiverState : Int := 0
  padding1 : Int := 0
  receivedPower : F64 := 0x0000000000000000
  transmitterEntityID : EntityIdentifier := EntityIdentifier.init
  transmitterRadioId : Int := 0
  pduType := 27
  deriving DecidableEq

/-- Constructor `ReceiverPdu(...)`, /repo/opendis/dis7.py:6743-6757. `x or T()` and `x or []` keep a given
value and replace `None` (absent) by a fresh one. -/
def ReceiverPdu.init (receiverState : Int := 0) (receivedPower : F64 := 0x0000000000000000)
    (transmitterEntityID : Option EntityIdentifier := none) (transmitterRadioId : Int := 0) : ReceiverPdu :=
  { receiverState := receiverState,
    padding1 := 0,
    receivedPower := receivedPower,
    transmitterEntityID := transmitterEntityID.getD EntityIdentifier.init,
    transmitterRadioId := transmitterRadioId }

/-- `ReceiverPdu.serialize`, /repo/opendis/dis7.py:6759-6766. -/
def ReceiverPdu.serialize (self : ReceiverPdu) : W Unit := do
  RadioCommunicationsFamilyPdu.serialize self.toRadioCommunicationsFamilyPdu
  write_unsigned_short self.receiverState
  write_unsigned_short self.padding1
  write_float self.receivedPower
  EntityIdentifier.serialize self.transmitterEntityID
  write_unsigned_short self.transmitterRadioId

/-- `ReceiverPdu.parse`, /repo/opendis/dis7.py:6768-6775; returns the updated object. -/
def ReceiverPdu.parse (self : ReceiverPdu) : R ReceiverPdu := do
  let base ← RadioCommunicationsFamilyPdu.parse self.toRadioCommunicationsFamilyPdu
  let receiverState ← read_unsigned_short
  let padding1 ← read_unsigned_short
  let receivedPower ← read_float
  let transmitterEntityID ← EntityIdentifier.parse self.transmitterEntityID
  let transmitterRadioId ← read_unsigned_short
  return { self with
    toRadioCommunicationsFamilyPdu := base,
    receiverState := receiverState,
    padding1 := padding1,
    receivedPower := receivedPower,
    transmitterEntityID := transmitterEntityID,
    transmitterRadioId := transmitterRadioId }

/-- Attributes of a `UaPdu` object, /repo/opendis/dis7.py:6778-6870; default values are those of an
object made by `UaPdu()`, /repo/opendis/dis7.py:6787-6814. -/
structure UaPdu extends DistributedEmissionsFamilyPdu where
  emittingEntityID : EntityIdentifier := EntityIdentifier.init
  eventID : EventIdentifier := EventIdentifier.init
  stateChangeIndicator : Int := 0
  pad : Int := 0
  passiveParameterIndex : Int := 0
  propulsionPlantConfiguration : Int := 0
  shaftRPMs : List Int := []
  apaData : List Int := []
  emitterSystems : List Int := []
  pduType := 29
  deriving DecidableEq

/-- Constructor `UaPdu(...)`, /repo/opendis/dis7.py:6787-6814. `x or T()` and `x or []` keep a given
value and replace `None` (absent) by a fresh one. -/
def UaPdu.init (emittingEntityID : Option EntityIdentifier := none)
    (eventID : Option EventIdentifier := none) (stateChangeIndicator : Int := 0)
    (passiveParameterIndex : Int := 0) (propulsionPlantConfiguration : Int := 0)
    (shaftRPMs : List Int := []) (apaData : List Int := []) (emitterSystems : List Int := []) : UaPdu :=
  { emittingEntityID := emittingEntityID.getD EntityIdentifier.init,
    eventID := eventID.getD EventIdentifier.init,
    stateChangeIndicator := stateChangeIndicator,
    pad := 0,
    passiveParameterIndex := passiveParameterIndex,
    propulsionPlantConfiguration := propulsionPlantConfiguration,
    shaftRPMs := shaftRPMs,
    apaData := apaData,
    emitterSystems := emitterSystems }

/-- `UaPdu.serialize`, /repo/opendis/dis7.py:6828-6845. -/
def UaPdu.serialize (self : UaPdu) : W Unit := do
  DistributedEmissionsFamilyPdu.serialize self.toDistributedEmissionsFamilyPdu
  EntityIdentifier.serialize self.emittingEntityID
  EventIdentifier.serialize self.eventID
  write_byte self.stateChangeIndicator
  write_byte self.pad
  write_unsigned_short self.passiveParameterIndex
  write_unsigned_byte self.propulsionPlantConfiguration
  write_unsigned_byte (self.shaftRPMs.length : Int)
  write_unsigned_byte (self.apaData.length : Int)
  write_unsigned_byte (self.emitterSystems.length : Int)
  W.forEach self.shaftRPMs fun _ => W.throw .attributeError
  W.forEach self.apaData fun _ => W.throw .attributeError
  W.forEach self.emitterSystems fun _ => W.throw .attributeError

/-- `UaPdu.parse`, /repo/opendis/dis7.py:6847-6870; returns the updated object. -/
def UaPdu.parse (self : UaPdu) : R UaPdu := do
  let base ← DistributedEmissionsFamilyPdu.parse self.toDistributedEmissionsFamilyPdu
  let emittingEntityID ← EntityIdentifier.parse self.emittingEntityID
  let eventID ← EventIdentifier.parse self.eventID
  let stateChangeIndicator ← read_byte
  let pad ← read_byte
  let passiveParameterIndex ← read_unsigned_short
  let propulsionPlantConfiguration ← read_unsigned_byte
  let numberOfShafts ← read_unsigned_byte
  let numberOfAPAs ← read_unsigned_byte
  let numberOfUAEmitterSystems ← read_unsigned_byte
  let shaftRPMs ← R.times numberOfShafts.toNat (R.throw .nameError : R Int)
  let apaData ← R.times numberOfAPAs.toNat (R.throw .nameError : R Int)
  let emitterSystems ← R.times numberOfUAEmitterSystems.toNat (R.throw .nameError : R Int)
  return { self with
    toDistributedEmissionsFamilyPdu := base,
    emittingEntityID := emittingEntityID,
    eventID := eventID,
    stateChangeIndicator := stateChangeIndicator,
    pad := pad,
    passiveParameterIndex := passiveParameterIndex,
    propulsionPlantConfiguration := propulsionPlantConfiguration,
    shaftRPMs := self.shaftRPMs ++ shaftRPMs,
    apaData := self.apaData ++ apaData,
    emitterSystems := self.emitterSystems ++ emitterSystems }

/-- Attributes of a `SignalPdu` object, /repo/opendis/dis7.py:6957-7015; default values are those of an
object made by `SignalPdu()`, /repo/opendis/dis7.py:6966-6982. -/
structure SignalPdu extends RadioCommunicationsFamilyPdu where
  entityID : EntityIdentifier := EntityIdentifier.init
  radioID : Int := 0
  encodingScheme : Int := 0
  tdlType : Int := 0
  sampleRate : Int := 0
  samples : Int := 0
  data : List Int := []
  pduType := 26
  deriving DecidableEq

/-- Constructor `SignalPdu(...)`, /repo/opendis/dis7.py:6966-6982. `x or T()` and `x or []` keep a given
value and replace `None` (absent) by a fresh one. -/
def SignalPdu.init (entityID : Option EntityIdentifier := none) (radioID : Int := 0)
    (encodingScheme : Int := 0) (tdlType : Int := 0) (sampleRate : Int := 0) (samples : Int := 0)
    (data : List Int := []) : SignalPdu :=
  { entityID := entityID.getD EntityIdentifier.init,
    radioID := radioID,
    encodingScheme := encodingScheme,
    tdlType := tdlType,
    sampleRate := sampleRate,
    samples := samples,
    data := data }

/-- `SignalPdu.serialize`, /repo/opendis/dis7.py:6990-7001. -/
def SignalPdu.serialize (self : SignalPdu) : W Unit := do
  RadioCommunicationsFamilyPdu.serialize self.toRadioCommunicationsFamilyPdu
  EntityIdentifier.serialize self.entityID
  write_unsigned_short self.radioID
  write_unsigned_short self.encodingScheme
  write_unsigned_short self.tdlType
  write_unsigned_int self.sampleRate
  write_unsigned_short ((self.data.length : Int) * 8)
  write_unsigned_short self.samples
  W.forEach self.data write_unsigned_byte

/-- `SignalPdu.parse`, /repo/opendis/dis7.py:7003-7015; returns the updated object. -/
def SignalPdu.parse (self : SignalPdu) : R SignalPdu := do
  let base ← RadioCommunicationsFamilyPdu.parse self.toRadioCommunicationsFamilyPdu
  let entityID ← EntityIdentifier.parse self.entityID
  let radioID ← read_unsigned_short
  let encodingScheme ← read_unsigned_short
  let tdlType ← read_unsigned_short
  let sampleRate ← read_unsigned_int
  let dataLength ← read_unsigned_short
  let samples ← read_unsigned_short
  let data ← R.times (dataLength / 8).toNat read_unsigned_byte
  return { self with
    toRadioCommunicationsFamilyPdu := base,
    entityID := entityID,
    radioID := radioID,
    encodingScheme := encodingScheme,
    tdlType := tdlType,
    sampleRate := sampleRate,
    samples := samples,
    data := self.data ++ data }

/-- Attributes of a `RemoveEntityReliablePdu` object, /repo/opendis/dis7.py:7018-7049; default values are those of an
object made by `RemoveEntityReliablePdu()`, /repo/opendis/dis7.py:7025-7033. -/
structure RemoveEntityReliablePdu extends SimulationManagementWithReliabilityFamilyPdu where
  requiredReliabilityService : Int := 0
  pad1 : Int := 0
  pad2 : Int := 0
  requestID : Int := 0
  pduType := 52
  deriving DecidableEq

/-- Constructor `RemoveEntityReliablePdu(...)`, /repo/opendis/dis7.py:7025-7033. `x or T()` and `x or []` keep a given
value and replace `None` (absent) by a fresh one. -/
def RemoveEntityReliablePdu.init (requiredReliabilityService : Int := 0) (requestID : Int := 0) : RemoveEntityReliablePdu :=
  { requiredReliabilityService := requiredReliabilityService,
    pad1 := 0,
    pad2 := 0,
    requestID := requestID }

/-- `RemoveEntityReliablePdu.serialize`, /repo/opendis/dis7.py:7035-7041. -/
def RemoveEntityReliablePdu.serialize (self : RemoveEntityReliablePdu) : W Unit := do
  SimulationManagementWithReliabilityFamilyPdu.serialize self.toSimulationManagementWithReliabilityFamilyPdu
  write_unsigned_byte self.requiredReliabilityService
  write_unsigned_short self.pad1
  write_unsigned_byte self.pad2
  write_unsigned_int self.requestID

/-- `RemoveEntityReliablePdu.parse`, /repo/opendis/dis7.py:7043-7049; returns the updated object. -/
def RemoveEntityReliablePdu.parse (self : RemoveEntityReliablePdu) : R RemoveEntityReliablePdu := do
  let base ← SimulationManagementWithReliabilityFamilyPdu.parse self.toSimulationManagementWithReliabilityFamilyPdu
  let requiredReliabilityService ← read_unsigned_byte
  let pad1 ← read_unsigned_short
  let pad2 ← read_unsigned_byte
  let requestID ← read_unsigned_int
  return { self with
    toSimulationManagementWithReliabilityFamilyPdu := base,
    requiredReliabilityService := requiredReliabilityService,
    pad1 := pad1,
    pad2 := pad2,
    requestID := requestID }

/-- Attributes of a `SeesPdu` object, /repo/opendis/dis7.py:7052-7119; default values are those of an
object made by `SeesPdu()`, /repo/opendis/dis7.py:7059-7072. -/
structure SeesPdu extends DistributedEmissionsFamilyPdu where
  orginatingEntityID : EntityIdentifier := EntityIdentifier.init
  infraredSignatureRepresentationIndex : Int := 0
  acousticSignatureRepresentationIndex : Int := 0
  radarCrossSectionSignatureRepresentationIndex : Int := 0
  propulsionSystemData : List PropulsionSystemData := []
  vectoringSystemData : List VectoringNozzleSystem := []
  pduType := 30
  deriving DecidableEq

/-- Constructor `SeesPdu(...)`, /repo/opendis/dis7.py:7059-7072. `x or T()` and `x or []` keep a given
value and replace `None` (absent) by a fresh one. -/
def SeesPdu.init (originatingEntityID : Option EntityIdentifier := none)
    (infraredSignatureRepresentationIndex : Int := 0)
    (acousticSignatureRepresentationIndex : Int := 0)
    (radarCrossSectionSignatureRepresentationIndex : Int := 0)
    (propulsionSystemData : List PropulsionSystemData := [])
    (vectoringSystemData : List VectoringNozzleSystem := []) : SeesPdu :=
  { orginatingEntityID := originatingEntityID.getD EntityIdentifier.init,
    infraredSignatureRepresentationIndex := infraredSignatureRepresentationIndex,
    acousticSignatureRepresentationIndex := acousticSignatureRepresentationIndex,
    radarCrossSectionSignatureRepresentationIndex := radarCrossSectionSignatureRepresentationIndex,
    propulsionSystemData := propulsionSystemData,
    vectoringSystemData := vectoringSystemData }

/-- `SeesPdu.serialize`, /repo/opendis/dis7.py:7082-7097. -/
def SeesPdu.serialize (self : SeesPdu) : W Unit := do
  DistributedEmissionsFamilyPdu.serialize self.toDistributedEmissionsFamilyPdu
  EntityIdentifier.serialize self.orginatingEntityID
  write_unsigned_short self.infraredSignatureRepresentationIndex
  write_unsigned_short self.acousticSignatureRepresentationIndex
  write_unsigned_short self.radarCrossSectionSignatureRepresentationIndex
  write_unsigned_short (self.propulsionSystemData.length : Int)
  write_unsigned_short (self.vectoringSystemData.length : Int)
  W.forEach self.propulsionSystemData PropulsionSystemData.serialize
  W.forEach self.vectoringSystemData VectoringNozzleSystem.serialize

/-- `SeesPdu.parse`, /repo/opendis/dis7.py:7099-7119; returns the updated object. -/
def SeesPdu.parse (self : SeesPdu) : R SeesPdu := do
  let base ← DistributedEmissionsFamilyPdu.parse self.toDistributedEmissionsFamilyPdu
  let orginatingEntityID ← EntityIdentifier.parse self.orginatingEntityID
  let infraredSignatureRepresentationIndex ← read_unsigned_short
  let acousticSignatureRepresentationIndex ← read_unsigned_short
  let radarCrossSectionSignatureRepresentationIndex ← read_unsigned_short
  let numberOfPropulsionSystems ← read_unsigned_short
  let numberOfVectoringNozzleSystems ← read_unsigned_short
  let propulsionSystemData ← R.times numberOfPropulsionSystems.toNat (R.throw .nameError : R PropulsionSystemData)
  let vectoringSystemData ← R.times numberOfVectoringNozzleSystems.toNat (R.throw .nameError : R VectoringNozzleSystem)
  return { self with
    toDistributedEmissionsFamilyPdu := base,
    orginatingEntityID := orginatingEntityID,
    infraredSignatureRepresentationIndex := infraredSignatureRepresentationIndex,
    acousticSignatureRepresentationIndex := acousticSignatureRepresentationIndex,
    radarCrossSectionSignatureRepresentationIndex := radarCrossSectionSignatureRepresentationIndex,
    propulsionSystemData := self.propulsionSystemData ++ propulsionSystemData,
    vectoringSystemData := self.vectoringSystemData ++ vectoringSystemData }

/-- Attributes of a `CreateEntityReliablePdu` object, /repo/opendis/dis7.py:7122-7153; default values are those of an
object made by `CreateEntityReliablePdu()`, /repo/opendis/dis7.py:7129-7137. -/
structure CreateEntityReliablePdu extends SimulationManagementWithReliabilityFamilyPdu where
  requiredReliabilityService : Int := 0
  pad1 : Int := 0
  pad2 : Int := 0
  requestID : Int := 0
  pduType := 51
  deriving DecidableEq

/-- Constructor `CreateEntityReliablePdu(...)`, /repo/opendis/dis7.py:7129-7137. `x or T()` and `x or []` keep a given
value and replace `None` (absent) by a fresh one. -/
def CreateEntityReliablePdu.init (requiredReliabilityService : Int := 0) (requestID : Int := 0) : CreateEntityReliablePdu :=
  { requiredReliabilityService := requiredReliabilityService,
    pad1 := 0,
    pad2 := 0,
    requestID := requestID }

/-- `CreateEntityReliablePdu.serialize`, /repo/opendis/dis7.py:7139-7145. -/
def CreateEntityReliablePdu.serialize (self : CreateEntityReliablePdu) : W Unit := do
  SimulationManagementWithReliabilityFamilyPdu.serialize self.toSimulationManagementWithReliabilityFamilyPdu
  write_unsigned_byte self.requiredReliabilityService
  write_unsigned_short self.pad1
  write_unsigned_byte self.pad2
  write_unsigned_int self.requestID

/-- `CreateEntityReliablePdu.parse`, /repo/opendis/dis7.py:7147-7153; returns the updated object. -/
def CreateEntityReliablePdu.parse (self : CreateEntityReliablePdu) : R CreateEntityReliablePdu := do
  let base ← SimulationManagementWithReliabilityFamilyPdu.parse self.toSimulationManagementWithReliabilityFamilyPdu
  let requiredReliabilityService ← read_unsigned_byte
  let pad1 ← read_unsigned_short
  let pad2 ← read_unsigned_byte
  let requestID ← read_unsigned_int
  return { self with
    toSimulationManagementWithReliabilityFamilyPdu := base,
    requiredReliabilityService := requiredReliabilityService,
    pad1 := pad1,
    pad2 := pad2,
    requestID := requestID }

/-- Attributes of a `StopFreezeReliablePdu` object, /repo/opendis/dis7.py:7156-7199; default values are those of an
object made by `StopFreezeReliablePdu()`, /repo/opendis/dis7.py:7163-7179. -/
structure StopFreezeReliablePdu extends SimulationManagementWithReliabilityFamilyPdu where
  realWorldTime : ClockTime := ClockTime.init
  reason : Int := 0
  frozenBehavior : Int := 0
  requiredReliablityService : Int := 0
  pad1 : Int := 0
  requestID : Int := 0
  pduType := 54
  deriving DecidableEq

/-- Constructor `StopFreezeReliablePdu(...)`, /repo/opendis/dis7.py:7163-7179. `x or T()` and `x or []` keep a given
value and replace `None` (absent) by a fresh one. -/
def StopFreezeReliablePdu.init (realWorldTime : Option ClockTime := none) (reason : Int := 0)
    (frozenBehavior : Int := 0) (requiredReliabilityService : Int := 0) (requestID : Int := 0) : StopFreezeReliablePdu :=
  { realWorldTime := realWorldTime.getD ClockTime.init,
    reason := reason,
    frozenBehavior := frozenBehavior,
    requiredReliablityService := requiredReliabilityService,
    pad1 := 0,
    requestID := requestID }

/-- `StopFreezeReliablePdu.serialize`, /repo/opendis/dis7.py:7181-7189. -/
def StopFreezeReliablePdu.serialize (self : StopFreezeReliablePdu) : W Unit := do
  SimulationManagementWithReliabilityFamilyPdu.serialize self.toSimulationManagementWithReliabilityFamilyPdu
  ClockTime.serialize self.realWorldTime
  write_unsigned_byte self.reason
  write_unsigned_byte self.frozenBehavior
  write_unsigned_byte self.requiredReliablityService
  write_unsigned_byte self.pad1
  write_unsigned_int self.requestID

/-- `StopFreezeReliablePdu.parse`, /repo/opendis/dis7.py:7191-7199; returns the updated object. -/
def StopFreezeReliablePdu.parse (self : StopFreezeReliablePdu) : R StopFreezeReliablePdu := do
  let base ← SimulationManagementWithReliabilityFamilyPdu.parse self.toSimulationManagementWithReliabilityFamilyPdu
  let realWorldTime ← ClockTime.parse self.realWorldTime
  let reason ← read_unsigned_byte
  let frozenBehavior ← read_unsigned_byte
  let requiredReliablityService ← read_unsigned_byte
  let pad1 ← read_unsigned_byte
  let requestID ← read_unsigned_int
  return { self with
    toSimulationManagementWithReliabilityFamilyPdu := base,
    realWorldTime := realWorldTime,
    reason := reason,
    frozenBehavior := frozenBehavior,
    requiredReliablityService := requiredReliablityService,
    pad1 := pad1,
    requestID := requestID }

/-- Attributes of a `EventReportReliablePdu` object, /repo/opendis/dis7.py:7202-7250; default values are those of an
object made by `EventReportReliablePdu()`, /repo/opendis/dis7.py:7210-7220. -/
structure EventReportReliablePdu extends SimulationManagementWithReliabilityFamilyPdu where
  eventType : Int := 0
  pad1 : Int := 0
  _datums : DatumSpecification := DatumSpecification.init
  pduType := 61
  deriving DecidableEq

/-- Constructor `EventReportReliablePdu(...)`, /repo/opendis/dis7.py:7210-7220. `x or T()` and `x or []` keep a given
value and replace `None` (absent) by a fresh one. -/
def EventReportReliablePdu.init (eventType : Int := 0)
    (fixedDatumRecords : List FixedDatum := []) (variableDatumRecords : List VariableDatum := []) : EventReportReliablePdu :=
  { eventType := eventType,
    pad1 := 0,
    _datums := DatumSpecification.init fixedDatumRecords variableDatumRecords }

/-- `EventReportReliablePdu.serialize`, /repo/opendis/dis7.py:7238-7243. -/
def EventReportReliablePdu.serialize (self : EventReportReliablePdu) : W Unit := do
  SimulationManagementWithReliabilityFamilyPdu.serialize self.toSimulationManagementWithReliabilityFamilyPdu
  write_unsigned_short self.eventType
  write_unsigned_int self.pad1
  DatumSpecification.serialize self._datums

/-- `EventReportReliablePdu.parse`, /repo/opendis/dis7.py:7245-7250; returns the updated object. -/
def EventReportReliablePdu.parse (self : EventReportReliablePdu) : R EventReportReliablePdu := do
  let base ← SimulationManagementWithReliabilityFamilyPdu.parse self.toSimulationManagementWithReliabilityFamilyPdu
  let eventType ← read_unsigned_short
  let pad1 ← read_unsigned_int
  let _datums ← DatumSpecification.parse self._datums
  return { self with
    toSimulationManagementWithReliabilityFamilyPdu := base,
    eventType := eventType,
    pad1 := pad1,
    _datums := _datums }

/-- Attributes of a `MinefieldResponseNackPdu` object, /repo/opendis/dis7.py:7253-7299; default values are those of an
object made by `MinefieldResponseNackPdu()`, /repo/opendis/dis7.py:7260-7271. -/
structure MinefieldResponseNackPdu extends MinefieldFamilyPdu where
  minefieldID : EntityIdentifier := EntityIdentifier.init
  requestingEntityID : EntityIdentifier := EntityIdentifier.init
  requestID : Int := 0
  missingPduSequenceNumbers : List Int := []
  pduType := 40
  deriving DecidableEq

/-- Constructor `MinefieldResponseNackPdu(...)`, /repo/opendis/dis7.py:7260-7271. `x or T()` and `x or []` keep a given
value and replace `None` (absent) by a fresh one. -/
def MinefieldResponseNackPdu.init (minefieldID : Option EntityIdentifier := none)
    (requestingEntityID : Option EntityIdentifier := none) (requestID : Int := 0)
    (missingPduSequenceNumbers : List Int := []) : MinefieldResponseNackPdu :=
  { minefieldID := minefieldID.getD EntityIdentifier.init,
    requestingEntityID := requestingEntityID.getD EntityIdentifier.init,
    requestID := requestID,
    missingPduSequenceNumbers := missingPduSequenceNumbers }

/-- `MinefieldResponseNackPdu.serialize`, /repo/opendis/dis7.py:7278-7286. -/
def MinefieldResponseNackPdu.serialize (self : MinefieldResponseNackPdu) : W Unit := do
  MinefieldFamilyPdu.serialize self.toMinefieldFamilyPdu
  EntityIdentifier.serialize self.minefieldID
  EntityIdentifier.serialize self.requestingEntityID
  write_unsigned_byte self.requestID
  write_unsigned_byte (self.missingPduSequenceNumbers.length : Int)
  W.forEach self.missingPduSequenceNumbers fun _ => W.throw .attributeError

/-- `MinefieldResponseNackPdu.parse`, /repo/opendis/dis7.py:7288-7299; returns the updated object. -/
def MinefieldResponseNackPdu.parse (self : MinefieldResponseNackPdu) : R MinefieldResponseNackPdu := do
  let base ← MinefieldFamilyPdu.parse self.toMinefieldFamilyPdu
  let minefieldID ← EntityIdentifier.parse self.minefieldID
  let requestingEntityID ← EntityIdentifier.parse self.requestingEntityID
  let requestID ← read_unsigned_byte
  let numberOfMissingPdus ← read_unsigned_byte
  let missingPduSequenceNumbers ← R.times numberOfMissingPdus.toNat (R.throw .nameError : R Int)
  return { self with
    toMinefieldFamilyPdu := base,
    minefieldID := minefieldID,
    requestingEntityID := requestingEntityID,
    requestID := requestID,
    missingPduSequenceNumbers := self.missingPduSequenceNumbers ++ missingPduSequenceNumbers }

/-- Attributes of a `ActionResponseReliablePdu` object, /repo/opendis/dis7.py:7302-7349; default values are those of an
object made by `ActionResponseReliablePdu()`, /repo/opendis/dis7.py:7309-7319. -/
structure ActionResponseReliablePdu extends SimulationManagementWithReliabilityFamilyPdu where
  requestID : Int := 0
  responseStatus : Int := 0
  _datums : DatumSpecification := DatumSpecification.init
  pduType := 57
  deriving DecidableEq

/-- Constructor `ActionResponseReliablePdu(...)`, /repo/opendis/dis7.py:7309-7319. `x or T()` and `x or []` keep a given
value and replace `None` (absent) by a fresh one. -/
def ActionResponseReliablePdu.init (requestID : Int := 0) (responseStatus : Int := 0)
    (fixedDatumRecords : List FixedDatum := []) (variableDatumRecords : List VariableDatum := []) : ActionResponseReliablePdu :=
  { requestID := requestID,
    responseStatus := responseStatus,
    _datums := DatumSpecification.init fixedDatumRecords variableDatumRecords }

/-- `ActionResponseReliablePdu.serialize`, /repo/opendis/dis7.py:7337-7342. -/
def ActionResponseReliablePdu.serialize (self : ActionResponseReliablePdu) : W Unit := do
  SimulationManagementWithReliabilityFamilyPdu.serialize self.toSimulationManagementWithReliabilityFamilyPdu
  write_unsigned_int self.requestID
  write_unsigned_int self.responseStatus
  DatumSpecification.serialize self._datums

/-- `ActionResponseReliablePdu.parse`, /repo/opendis/dis7.py:7344-7349; returns the updated object. -/
def ActionResponseReliablePdu.parse (self : ActionResponseReliablePdu) : R ActionResponseReliablePdu := do
  let base ← SimulationManagementWithReliabilityFamilyPdu.parse self.toSimulationManagementWithReliabilityFamilyPdu
  let requestID ← read_unsigned_int
  let responseStatus ← read_unsigned_int
  let _datums ← DatumSpecification.parse self._datums
  return { self with
    toSimulationManagementWithReliabilityFamilyPdu := base,
    requestID := requestID,
    responseStatus := responseStatus,
    _datums := _datums }

/-- Attributes of a `IsPartOfPdu` object, /repo/opendis/dis7.py:7352-7397; default values are those of an
object made by `IsPartOfPdu()`, /repo/opendis/dis7.py:7360-7377. -/
structure IsPartOfPdu extends EntityManagementFamilyPdu where
  orginatingEntityID : EntityIdentifier := EntityIdentifier.init
  receivingEntityID : EntityIdentifier := EntityIdentifier.init
  relationship : Relationship := Relationship.init
  partLocation : Vector3Float := Vector3Float.init
  namedLocationID : NamedLocationIdentification := NamedLocationIdentification.init
  partEntityType : EntityType := EntityType.init
  pduType := 36
  deriving DecidableEq

/-- Constructor `IsPartOfPdu(...)`, /repo/opendis/dis7.py:7360-7377. `x or T()` and `x or []` keep a given
value and replace `None` (absent) by a fresh one. -/
def IsPartOfPdu.init (originatingEntityID : Option EntityIdentifier := none)
    (receivingEntityID : Option EntityIdentifier := none)
    (relationship : Option Relationship := none) (partLocation : Option Vector3Float := none)
    (namedLocationID : Option NamedLocationIdentification := none)
    (partEntityType : Option EntityType := none) : IsPartOfPdu :=
  { orginatingEntityID := originatingEntityID.getD EntityIdentifier.init,
    receivingEntityID := receivingEntityID.getD EntityIdentifier.init,
    relationship := relationship.getD Relationship.init,
    partLocation := partLocation.getD Vector3Float.init,
    namedLocationID := namedLocationID.getD NamedLocationIdentification.init,
    partEntityType := partEntityType.getD EntityType.init }

/-- `IsPartOfPdu.serialize`, /repo/opendis/dis7.py:7379-7387. -/
def IsPartOfPdu.serialize (self : IsPartOfPdu) : W Unit := do
  EntityManagementFamilyPdu.serialize self.toEntityManagementFamilyPdu
  EntityIdentifier.serialize self.orginatingEntityID
  EntityIdentifier.serialize self.receivingEntityID
  Relationship.serialize self.relationship
  Vector3Float.serialize self.partLocation
  NamedLocationIdentification.serialize self.namedLocationID
  EntityType.serialize self.partEntityType

/-- `IsPartOfPdu.parse`, /repo/opendis/dis7.py:7389-7397; returns the updated object. -/
def IsPartOfPdu.parse (self : IsPartOfPdu) : R IsPartOfPdu := do
  let base ← EntityManagementFamilyPdu.parse self.toEntityManagementFamilyPdu
  let orginatingEntityID ← EntityIdentifier.parse self.orginatingEntityID
  let receivingEntityID ← EntityIdentifier.parse self.receivingEntityID
  let relationship ← Relationship.parse self.relationship
  let partLocation ← Vector3Float.parse self.partLocation
  let namedLocationID ← NamedLocationIdentification.parse self.namedLocationID
  let partEntityType ← EntityType.parse self.partEntityType
  return { self with
    toEntityManagementFamilyPdu := base,
    orginatingEntityID := orginatingEntityID,
    receivingEntityID := receivingEntityID,
    relationship := relationship,
    partLocation := partLocation,
    namedLocationID := namedLocationID,
    partEntityType := partEntityType }

/-- Attributes of a `AggregateStatePdu` object, /repo/opendis/dis7.py:7400-7537; default values are those of an
object made by `AggregateStatePdu()`, /repo/opendis/dis7.py:7409-7449. -/
structure AggregateStatePdu extends EntityManagementFamilyPdu where
  aggregateID : AggregateIdentifier := AggregateIdentifier.init
  forceID : Int := 0
  aggregateState : Int := 0
  aggregateType : AggregateType := AggregateType.init
  formation : Int := 0
  aggregateMarking : AggregateMarking := AggregateMarking.init
  dimensions : Vector3Float := Vector3Float.init
  orientation : EulerAngles := EulerAngles.init
  centerOfMass : Vector3Float := Vector3Float.init
  velocity : WorldCoordinates := WorldCoordinates.init
  aggregateIDs : List AggregateIdentifier := []
  entityIDs : List EntityIdentifier := []
  silentAggregateSystems : List SilentAggregateSystem := []
  silentEntitySystems : List SilentEntitySystem := []
  variableDatumRecords : List VariableDatum := []
  pduType := 33
  deriving DecidableEq

/-- Constructor `AggregateStatePdu(...)`, /repo/opendis/dis7.py:7409-7449. `x or T()` and `x or []` keep a given
value and replace `None` (absent) by a fresh one. -/
def AggregateStatePdu.init (aggregateID : Option AggregateIdentifier := none)
    (forceID : Int := 0) (aggregateState : Int := 0)
    (aggregateType : Option AggregateType := none) (formation : Int := 0)
    (aggregateMarking : Option AggregateMarking := none)
    (dimensions : Option Vector3Float := none) (orientation : Option EulerAngles := none)
    (centerOfMass : Option Vector3Float := none) (velocity : Option WorldCoordinates := none)
    (aggregateIDs : List AggregateIdentifier := []) (entityIDs : List EntityIdentifier := [])
    (silentAggregateSystems : List SilentAggregateSystem := [])
    (silentEntitySystems : List SilentEntitySystem := [])
    (variableDatumRecords : List VariableDatum := []) : AggregateStatePdu :=
  { aggregateID := aggregateID.getD AggregateIdentifier.init,
    forceID := forceID,
    aggregateState := aggregateState,
    aggregateType := aggregateType.getD AggregateType.init,
    formation := formation,
    aggregateMarking := aggregateMarking.getD AggregateMarking.init,
    dimensions := dimensions.getD Vector3Float.init,
    orientation := orientation.getD EulerAngles.init,
    centerOfMass := centerOfMass.getD Vector3Float.init,
    velocity := velocity.getD WorldCoordinates.init,
    aggregateIDs := aggregateIDs,
    entityIDs := entityIDs,
    silentAggregateSystems := silentAggregateSystems,
    silentEntitySystems := silentEntitySystems,
    variableDatumRecords := variableDatumRecords }

/-- `AggregateStatePdu.serialize`, /repo/opendis/dis7.py:7471-7498. -/
def AggregateStatePdu.serialize (self : AggregateStatePdu) : W Unit := do
  EntityManagementFamilyPdu.serialize self.toEntityManagementFamilyPdu
  AggregateIdentifier.serialize self.aggregateID
  write_unsigned_byte self.forceID
  write_unsigned_byte self.aggregateState
  AggregateType.serialize self.aggregateType
  write_unsigned_int self.formation
  AggregateMarking.serialize self.aggregateMarking
  Vector3Float.serialize self.dimensions
  EulerAngles.serialize self.orientation
  Vector3Float.serialize self.centerOfMass
  WorldCoordinates.serialize self.velocity
  write_unsigned_short (self.aggregateIDs.length : Int)
  write_unsigned_short (self.entityIDs.length : Int)
  write_unsigned_short (self.silentAggregateSystems.length : Int)
  write_unsigned_short (self.silentEntitySystems.length : Int)
  W.forEach self.aggregateIDs AggregateIdentifier.serialize
  W.forEach self.entityIDs EntityIdentifier.serialize
  W.forEach self.silentAggregateSystems SilentAggregateSystem.serialize
  W.forEach self.silentEntitySystems SilentEntitySystem.serialize
  write_unsigned_int (self.variableDatumRecords.length : Int)
  W.forEach self.variableDatumRecords VariableDatum.serialize

/-- `AggregateStatePdu.parse`, /repo/opendis/dis7.py:7500-7537; returns the updated object. -/
def AggregateStatePdu.parse (self : AggregateStatePdu) : R AggregateStatePdu := do
  let base ← EntityManagementFamilyPdu.parse self.toEntityManagementFamilyPdu
  let aggregateID ← AggregateIdentifier.parse self.aggregateID
  let forceID ← read_unsigned_byte
  let aggregateState ← read_unsigned_byte
  let aggregateType ← AggregateType.parse self.aggregateType
  let formation ← read_unsigned_int
  let aggregateMarking ← AggregateMarking.parse self.aggregateMarking
  let dimensions ← Vector3Float.parse self.dimensions
  let orientation ← EulerAngles.parse self.orientation
  let centerOfMass ← Vector3Float.parse self.centerOfMass
  let velocity ← WorldCoordinates.parse self.velocity
  let numberOfAggregateIDs ← read_unsigned_short
  let numberOfEntityIDs ← read_unsigned_short
  let numberOfSilentAggregateSystems ← read_unsigned_short
  let numberOfSilentEntitySystems ← read_unsigned_short
  let aggregateIDs ← R.times numberOfAggregateIDs.toNat (AggregateIdentifier.parse AggregateIdentifier.init)
  let entityIDs ← R.times numberOfEntityIDs.toNat (EntityIdentifier.parse EntityIdentifier.init)
  let silentAggregateSystems ← R.times numberOfSilentAggregateSystems.toNat (SilentAggregateSystem.parse SilentAggregateSystem.init)
  let silentEntitySystems ← R.times numberOfSilentEntitySystems.toNat (SilentEntitySystem.parse SilentEntitySystem.init)
  let numberOfVariableDatumRecords ← read_unsigned_int
  let variableDatumRecords ← R.times numberOfVariableDatumRecords.toNat (VariableDatum.parse VariableDatum.init)
  return { self with
    toEntityManagementFamilyPdu := base,
    aggregateID := aggregateID,
    forceID := forceID,
    aggregateState := aggregateState,
    aggregateType := aggregateType,
    formation := formation,
    aggregateMarking := aggregateMarking,
    dimensions := dimensions,
    orientation := orientation,
    centerOfMass := centerOfMass,
    velocity := velocity,
    aggregateIDs := self.aggregateIDs ++ aggregateIDs,
    entityIDs := self.entityIDs ++ entityIDs,
    silentAggregateSystems := self.silentAggregateSystems ++ silentAggregateSystems,
    silentEntitySystems := self.silentEntitySystems ++ silentEntitySystems,
    variableDatumRecords := self.variableDatumRecords ++ variableDatumRecords }

end Dis
