import Verif.Model.Pdus5
import Verif.Spec.Pdus4

/-!
# Specification of: PDUs of `opendis/dis7.py`, part 5

Generated by `tools/genproof.py`.
-/

set_option linter.unusedVariables false
set_option linter.unusedSimpArgs false

namespace Dis

/-- The object `s` after it parsed what `o` serialized: fields of `o`, singles rounded, list elements
appended (/repo/opendis/dis7.py:6713-6722,6724-6733). -/
def FirePdu.after (s o : FirePdu) : FirePdu :=
  { s with
    toWarfareFamilyPdu := WarfareFamilyPdu.after s.toWarfareFamilyPdu o.toWarfareFamilyPdu,
    munitionExpendableID := EntityIdentifier.after s.munitionExpendableID o.munitionExpendableID,
    eventID := EventIdentifier.after s.eventID o.eventID,
    fireMissionIndex := o.fireMissionIndex,
    location := WorldCoordinates.after s.location o.location,
    descriptor := MunitionDescriptor.after s.descriptor o.descriptor,
    velocity := Vector3Float.after s.velocity o.velocity,
    range := quant o.range }

/-- Every field of `o` fits its wire type (/repo/opendis/dis7.py:6713-6722,6724-6733). -/
def FirePdu.WireOk (o : FirePdu) : Prop :=
  WarfareFamilyPdu.WireOk o.toWarfareFamilyPdu ∧
  EntityIdentifier.WireOk o.munitionExpendableID ∧
  EventIdentifier.WireOk o.eventID ∧
  U32 o.fireMissionIndex ∧
  MunitionDescriptor.WireOk o.descriptor ∧
  Vector3Float.WireOk o.velocity ∧
  F32Fits o.range

/-- `o` is in the form a fresh `FirePdu` takes after parsing: singles exact, arrays of the fixed length,
attributes that are not on the wire at their initial value (/repo/opendis/dis7.py:6713-6722,6724-6733). -/
def FirePdu.Canon (o : FirePdu) : Prop :=
  Vector3Float.Canon o.velocity ∧
  quant o.range = o.range

/-- No single-precision field of `o` is a NaN (/repo/opendis/dis7.py:6713-6722,6724-6733). -/
def FirePdu.NoNaN (o : FirePdu) : Prop :=
  Vector3Float.NoNaN o.velocity ∧
  ¬ o.range.isNaN

/-- Number of bytes `serialize` writes (/repo/opendis/dis7.py:6713-6722,6724-6733). -/
def FirePdu.wireSize (o : FirePdu) : Nat := 96

/-- The object `s` after it parsed what `o` serialized: fields of `o`, singles rounded, list elements
appended (/repo/opendis/dis7.py:6759-6766,6768-6775). -/
def ReceiverPdu.after (s o : ReceiverPdu) : ReceiverPdu :=
  { s with
    toRadioCommunicationsFamilyPdu := RadioCommunicationsFamilyPdu.after s.toRadioCommunicationsFamilyPdu o.toRadioCommunicationsFamilyPdu,
    receiverState := o.receiverState,
    padding1 := o.padding1,
    receivedPower := quant o.receivedPower,
    transmitterEntityID := EntityIdentifier.after s.transmitterEntityID o.transmitterEntityID,
    transmitterRadioId := o.transmitterRadioId }

/-- Every field of `o` fits its wire type (/repo/opendis/dis7.py:6759-6766,6768-6775). -/
def ReceiverPdu.WireOk (o : ReceiverPdu) : Prop :=
  RadioCommunicationsFamilyPdu.WireOk o.toRadioCommunicationsFamilyPdu ∧
  U16 o.receiverState ∧
  U16 o.padding1 ∧
  F32Fits o.receivedPower ∧
  EntityIdentifier.WireOk o.transmitterEntityID ∧
  U16 o.transmitterRadioId

/-- `o` is in the form a fresh `ReceiverPdu` takes after parsing: singles exact, arrays of the fixed length,
attributes that are not on the wire at their initial value (/repo/opendis/dis7.py:6759-6766,6768-6775). -/
def ReceiverPdu.Canon (o : ReceiverPdu) : Prop :=
  quant o.receivedPower = o.receivedPower

/-- No single-precision field of `o` is a NaN (/repo/opendis/dis7.py:6759-6766,6768-6775). -/
def ReceiverPdu.NoNaN (o : ReceiverPdu) : Prop :=
  ¬ o.receivedPower.isNaN

/-- Number of bytes `serialize` writes (/repo/opendis/dis7.py:6759-6766,6768-6775). -/
def ReceiverPdu.wireSize (o : ReceiverPdu) : Nat := 28

/-- The object `s` after it parsed what `o` serialized: fields of `o`, singles rounded, list elements
appended (/repo/opendis/dis7.py:6828-6845,6847-6870). -/
def UaPdu.after (s o : UaPdu) : UaPdu :=
  { s with
    toDistributedEmissionsFamilyPdu := DistributedEmissionsFamilyPdu.after s.toDistributedEmissionsFamilyPdu o.toDistributedEmissionsFamilyPdu,
    emittingEntityID := EntityIdentifier.after s.emittingEntityID o.emittingEntityID,
    eventID := EventIdentifier.after s.eventID o.eventID,
    stateChangeIndicator := o.stateChangeIndicator,
    pad := o.pad,
    passiveParameterIndex := o.passiveParameterIndex,
    propulsionPlantConfiguration := o.propulsionPlantConfiguration,
    shaftRPMs := s.shaftRPMs ++ [],
    apaData := s.apaData ++ [],
    emitterSystems := s.emitterSystems ++ [] }

/-- Every field of `o` fits its wire type (/repo/opendis/dis7.py:6828-6845,6847-6870). -/
def UaPdu.WireOk (o : UaPdu) : Prop :=
  DistributedEmissionsFamilyPdu.WireOk o.toDistributedEmissionsFamilyPdu ∧
  EntityIdentifier.WireOk o.emittingEntityID ∧
  EventIdentifier.WireOk o.eventID ∧
  S8 o.stateChangeIndicator ∧
  S8 o.pad ∧
  U16 o.passiveParameterIndex ∧
  U8 o.propulsionPlantConfiguration ∧
  U8 ((o.shaftRPMs.length : Int)) ∧
  U8 ((o.apaData.length : Int)) ∧
  U8 ((o.emitterSystems.length : Int)) ∧
  o.shaftRPMs = [] ∧
  o.apaData = [] ∧
  o.emitterSystems = []

/-- `o` is in the form a fresh `UaPdu` takes after parsing: singles exact, arrays of the fixed length,
attributes that are not on the wire at their initial value (/repo/opendis/dis7.py:6828-6845,6847-6870). -/
def UaPdu.Canon (o : UaPdu) : Prop :=
  o.shaftRPMs = [] ∧
  o.apaData = [] ∧
  o.emitterSystems = []

/-- No single-precision field of `o` is a NaN (/repo/opendis/dis7.py:6828-6845,6847-6870). -/
def UaPdu.NoNaN (o : UaPdu) : Prop :=
  True

/-- Number of bytes `serialize` writes (/repo/opendis/dis7.py:6828-6845,6847-6870). -/
def UaPdu.wireSize (o : UaPdu) : Nat := 32

/-- The object `s` after it parsed what `o` serialized: fields of `o`, singles rounded, list elements
appended (/repo/opendis/dis7.py:6990-7001,7003-7015). -/
def SignalPdu.after (s o : SignalPdu) : SignalPdu :=
  { s with
    toRadioCommunicationsFamilyPdu := RadioCommunicationsFamilyPdu.after s.toRadioCommunicationsFamilyPdu o.toRadioCommunicationsFamilyPdu,
    entityID := EntityIdentifier.after s.entityID o.entityID,
    radioID := o.radioID,
    encodingScheme := o.encodingScheme,
    tdlType := o.tdlType,
    sampleRate := o.sampleRate,
    samples := o.samples,
    data := s.data ++ o.data }

/-- Every field of `o` fits its wire type (/repo/opendis/dis7.py:6990-7001,7003-7015). -/
def SignalPdu.WireOk (o : SignalPdu) : Prop :=
  RadioCommunicationsFamilyPdu.WireOk o.toRadioCommunicationsFamilyPdu ∧
  EntityIdentifier.WireOk o.entityID ∧
  U16 o.radioID ∧
  U16 o.encodingScheme ∧
  U16 o.tdlType ∧
  U32 o.sampleRate ∧
  U16 ((o.data.length : Int) * 8) ∧
  U16 o.samples ∧
  (∀ x ∈ o.data, U8 x)

/-- `o` is in the form a fresh `SignalPdu` takes after parsing: singles exact, arrays of the fixed length,
attributes that are not on the wire at their initial value (/repo/opendis/dis7.py:6990-7001,7003-7015). -/
def SignalPdu.Canon (o : SignalPdu) : Prop :=
  True

/-- No single-precision field of `o` is a NaN (/repo/opendis/dis7.py:6990-7001,7003-7015). -/
def SignalPdu.NoNaN (o : SignalPdu) : Prop :=
  True

/-- Number of bytes `serialize` writes (/repo/opendis/dis7.py:6990-7001,7003-7015). -/
def SignalPdu.wireSize (o : SignalPdu) : Nat := 32 + 1 * o.data.length

/-- The object `s` after it parsed what `o` serialized: fields of `o`, singles rounded, list elements
appended (/repo/opendis/dis7.py:7035-7041,7043-7049). -/
def RemoveEntityReliablePdu.after (s o : RemoveEntityReliablePdu) : RemoveEntityReliablePdu :=
  { s with
    toSimulationManagementWithReliabilityFamilyPdu := SimulationManagementWithReliabilityFamilyPdu.after s.toSimulationManagementWithReliabilityFamilyPdu o.toSimulationManagementWithReliabilityFamilyPdu,
    requiredReliabilityService := o.requiredReliabilityService,
    pad1 := o.pad1,
    pad2 := o.pad2,
    requestID := o.requestID }

/-- Every field of `o` fits its wire type (/repo/opendis/dis7.py:7035-7041,7043-7049). -/
def RemoveEntityReliablePdu.WireOk (o : RemoveEntityReliablePdu) : Prop :=
  SimulationManagementWithReliabilityFamilyPdu.WireOk o.toSimulationManagementWithReliabilityFamilyPdu ∧
  U8 o.requiredReliabilityService ∧
  U16 o.pad1 ∧
  U8 o.pad2 ∧
  U32 o.requestID

/-- `o` is in the form a fresh `RemoveEntityReliablePdu` takes after parsing: singles exact, arrays of the fixed length,
attributes that are not on the wire at their initial value (/repo/opendis/dis7.py:7035-7041,7043-7049). -/
def RemoveEntityReliablePdu.Canon (o : RemoveEntityReliablePdu) : Prop :=
  True

/-- No single-precision field of `o` is a NaN (/repo/opendis/dis7.py:7035-7041,7043-7049). -/
def RemoveEntityReliablePdu.NoNaN (o : RemoveEntityReliablePdu) : Prop :=
  True

/-- Number of bytes `serialize` writes (/repo/opendis/dis7.py:7035-7041,7043-7049). -/
def RemoveEntityReliablePdu.wireSize (o : RemoveEntityReliablePdu) : Nat := 32

/-- The object `s` after it parsed what `o` serialized: fields of `o`, singles rounded, list elements
appended (/repo/opendis/dis7.py:7082-7097,7099-7119). -/
def SeesPdu.after (s o : SeesPdu) : SeesPdu :=
  { s with
    toDistributedEmissionsFamilyPdu := DistributedEmissionsFamilyPdu.after s.toDistributedEmissionsFamilyPdu o.toDistributedEmissionsFamilyPdu,
    orginatingEntityID := EntityIdentifier.after s.orginatingEntityID o.orginatingEntityID,
    infraredSignatureRepresentationIndex := o.infraredSignatureRepresentationIndex,
    acousticSignatureRepresentationIndex := o.acousticSignatureRepresentationIndex,
    radarCrossSectionSignatureRepresentationIndex := o.radarCrossSectionSignatureRepresentationIndex,
    propulsionSystemData := s.propulsionSystemData ++ [],
    vectoringSystemData := s.vectoringSystemData ++ [] }

/-- Every field of `o` fits its wire type (/repo/opendis/dis7.py:7082-7097,7099-7119). -/
def SeesPdu.WireOk (o : SeesPdu) : Prop :=
  DistributedEmissionsFamilyPdu.WireOk o.toDistributedEmissionsFamilyPdu ∧
  EntityIdentifier.WireOk o.orginatingEntityID ∧
  U16 o.infraredSignatureRepresentationIndex ∧
  U16 o.acousticSignatureRepresentationIndex ∧
  U16 o.radarCrossSectionSignatureRepresentationIndex ∧
  U16 ((o.propulsionSystemData.length : Int)) ∧
  U16 ((o.vectoringSystemData.length : Int)) ∧
  (∀ x ∈ o.propulsionSystemData, PropulsionSystemData.WireOk x) ∧
  (∀ x ∈ o.vectoringSystemData, VectoringNozzleSystem.WireOk x)

/-- `o` is in the form a fresh `SeesPdu` takes after parsing: singles exact, arrays of the fixed length,
attributes that are not on the wire at their initial value (/repo/opendis/dis7.py:7082-7097,7099-7119). -/
def SeesPdu.Canon (o : SeesPdu) : Prop :=
  o.propulsionSystemData = [] ∧
  o.vectoringSystemData = []

/-- No single-precision field of `o` is a NaN (/repo/opendis/dis7.py:7082-7097,7099-7119). -/
def SeesPdu.NoNaN (o : SeesPdu) : Prop :=
  True

/-- `o` avoids the lists that `parse` cannot read back (/repo/opendis/dis7.py:7082-7097,7099-7119). -/
def SeesPdu.Decodable (o : SeesPdu) : Prop :=
  o.propulsionSystemData = [] ∧
  o.vectoringSystemData = []

/-- Number of bytes `serialize` writes (/repo/opendis/dis7.py:7082-7097,7099-7119). -/
def SeesPdu.wireSize (o : SeesPdu) : Nat := 28 + 8 * o.propulsionSystemData.length + 8 * o.vectoringSystemData.length

/-- The object `s` after it parsed what `o` serialized: fields of `o`, singles rounded, list elements
appended (/repo/opendis/dis7.py:7139-7145,7147-7153). -/
def CreateEntityReliablePdu.after (s o : CreateEntityReliablePdu) : CreateEntityReliablePdu :=
  { s with
    toSimulationManagementWithReliabilityFamilyPdu := SimulationManagementWithReliabilityFamilyPdu.after s.toSimulationManagementWithReliabilityFamilyPdu o.toSimulationManagementWithReliabilityFamilyPdu,
    requiredReliabilityService := o.requiredReliabilityService,
    pad1 := o.pad1,
    pad2 := o.pad2,
    requestID := o.requestID }

/-- Every field of `o` fits its wire type (/repo/opendis/dis7.py:7139-7145,7147-7153). -/
def CreateEntityReliablePdu.WireOk (o : CreateEntityReliablePdu) : Prop :=
  SimulationManagementWithReliabilityFamilyPdu.WireOk o.toSimulationManagementWithReliabilityFamilyPdu ∧
  U8 o.requiredReliabilityService ∧
  U16 o.pad1 ∧
  U8 o.pad2 ∧
  U32 o.requestID

/-- `o` is in the form a fresh `CreateEntityReliablePdu` takes after parsing: singles exact, arrays of the fixed length,
attributes that are not on the wire at their initial value (/repo/opendis/dis7.py:7139-7145,7147-7153). -/
def CreateEntityReliablePdu.Canon (o : CreateEntityReliablePdu) : Prop :=
  True

/-- No single-precision field of `o` is a NaN (/repo/opendis/dis7.py:7139-7145,7147-7153). -/
def CreateEntityReliablePdu.NoNaN (o : CreateEntityReliablePdu) : Prop :=
  True

/-- Number of bytes `serialize` writes (/repo/opendis/dis7.py:7139-7145,7147-7153). -/
def CreateEntityReliablePdu.wireSize (o : CreateEntityReliablePdu) : Nat := 32

/-- The object `s` after it parsed what `o` serialized: fields of `o`, singles rounded, list elements
appended (/repo/opendis/dis7.py:7181-7189,7191-7199). -/
def StopFreezeReliablePdu.after (s o : StopFreezeReliablePdu) : StopFreezeReliablePdu :=
  { s with
    toSimulationManagementWithReliabilityFamilyPdu := SimulationManagementWithReliabilityFamilyPdu.after s.toSimulationManagementWithReliabilityFamilyPdu o.toSimulationManagementWithReliabilityFamilyPdu,
    realWorldTime := ClockTime.after s.realWorldTime o.realWorldTime,
    reason := o.reason,
    frozenBehavior := o.frozenBehavior,
    requiredReliablityService := o.requiredReliablityService,
    pad1 := o.pad1,
    requestID := o.requestID }

/-- Every field of `o` fits its wire type (/repo/opendis/dis7.py:7181-7189,7191-7199). -/
def StopFreezeReliablePdu.WireOk (o : StopFreezeReliablePdu) : Prop :=
  SimulationManagementWithReliabilityFamilyPdu.WireOk o.toSimulationManagementWithReliabilityFamilyPdu ∧
  ClockTime.WireOk o.realWorldTime ∧
  U8 o.reason ∧
  U8 o.frozenBehavior ∧
  U8 o.requiredReliablityService ∧
  U8 o.pad1 ∧
  U32 o.requestID

/-- `o` is in the form a fresh `StopFreezeReliablePdu` takes after parsing: singles exact, arrays of the fixed length,
attributes that are not on the wire at their initial value (/repo/opendis/dis7.py:7181-7189,7191-7199). -/
def StopFreezeReliablePdu.Canon (o : StopFreezeReliablePdu) : Prop :=
  True

/-- No single-precision field of `o` is a NaN (/repo/opendis/dis7.py:7181-7189,7191-7199). -/
def StopFreezeReliablePdu.NoNaN (o : StopFreezeReliablePdu) : Prop :=
  True

/-- Number of bytes `serialize` writes (/repo/opendis/dis7.py:7181-7189,7191-7199). -/
def StopFreezeReliablePdu.wireSize (o : StopFreezeReliablePdu) : Nat := 40

/-- The object `s` after it parsed what `o` serialized: fields of `o`, singles rounded, list elements
appended (/repo/opendis/dis7.py:7238-7243,7245-7250). -/
def EventReportReliablePdu.after (s o : EventReportReliablePdu) : EventReportReliablePdu :=
  { s with
    toSimulationManagementWithReliabilityFamilyPdu := SimulationManagementWithReliabilityFamilyPdu.after s.toSimulationManagementWithReliabilityFamilyPdu o.toSimulationManagementWithReliabilityFamilyPdu,
    eventType := o.eventType,
    pad1 := o.pad1,
    _datums := DatumSpecification.after s._datums o._datums }

/-- Every field of `o` fits its wire type (/repo/opendis/dis7.py:7238-7243,7245-7250). -/
def EventReportReliablePdu.WireOk (o : EventReportReliablePdu) : Prop :=
  SimulationManagementWithReliabilityFamilyPdu.WireOk o.toSimulationManagementWithReliabilityFamilyPdu ∧
  U16 o.eventType ∧
  U32 o.pad1 ∧
  DatumSpecification.WireOk o._datums

/-- `o` is in the form a fresh `EventReportReliablePdu` takes after parsing: singles exact, arrays of the fixed length,
attributes that are not on the wire at their initial value (/repo/opendis/dis7.py:7238-7243,7245-7250). -/
def EventReportReliablePdu.Canon (o : EventReportReliablePdu) : Prop :=
  DatumSpecification.Canon o._datums

/-- No single-precision field of `o` is a NaN (/repo/opendis/dis7.py:7238-7243,7245-7250). -/
def EventReportReliablePdu.NoNaN (o : EventReportReliablePdu) : Prop :=
  True

/-- Number of bytes `serialize` writes (/repo/opendis/dis7.py:7238-7243,7245-7250). -/
def EventReportReliablePdu.wireSize (o : EventReportReliablePdu) : Nat := 38 + 8 * o._datums.fixedDatumRecords.length + (o._datums.variableDatumRecords.map VariableDatum.wireSize).sum

/-- The object `s` after it parsed what `o` serialized: fields of `o`, singles rounded, list elements
appended (/repo/opendis/dis7.py:7278-7286,7288-7299). -/
def MinefieldResponseNackPdu.after (s o : MinefieldResponseNackPdu) : MinefieldResponseNackPdu :=
  { s with
    toMinefieldFamilyPdu := MinefieldFamilyPdu.after s.toMinefieldFamilyPdu o.toMinefieldFamilyPdu,
    minefieldID := EntityIdentifier.after s.minefieldID o.minefieldID,
    requestingEntityID := EntityIdentifier.after s.requestingEntityID o.requestingEntityID,
    requestID := o.requestID,
    missingPduSequenceNumbers := s.missingPduSequenceNumbers ++ [] }

/-- Every field of `o` fits its wire type (/repo/opendis/dis7.py:7278-7286,7288-7299). -/
def MinefieldResponseNackPdu.WireOk (o : MinefieldResponseNackPdu) : Prop :=
  MinefieldFamilyPdu.WireOk o.toMinefieldFamilyPdu ∧
  EntityIdentifier.WireOk o.minefieldID ∧
  EntityIdentifier.WireOk o.requestingEntityID ∧
  U8 o.requestID ∧
  U8 ((o.missingPduSequenceNumbers.length : Int)) ∧
  o.missingPduSequenceNumbers = []

/-- `o` is in the form a fresh `MinefieldResponseNackPdu` takes after parsing: singles exact, arrays of the fixed length,
attributes that are not on the wire at their initial value (/repo/opendis/dis7.py:7278-7286,7288-7299). -/
def MinefieldResponseNackPdu.Canon (o : MinefieldResponseNackPdu) : Prop :=
  o.missingPduSequenceNumbers = []

/-- No single-precision field of `o` is a NaN (/repo/opendis/dis7.py:7278-7286,7288-7299). -/
def MinefieldResponseNackPdu.NoNaN (o : MinefieldResponseNackPdu) : Prop :=
  True

/-- Number of bytes `serialize` writes (/repo/opendis/dis7.py:7278-7286,7288-7299). -/
def MinefieldResponseNackPdu.wireSize (o : MinefieldResponseNackPdu) : Nat := 26

/-- The object `s` after it parsed what `o` serialized: fields of `o`, singles rounded, list elements
appended (/repo/opendis/dis7.py:7337-7342,7344-7349). -/
def ActionResponseReliablePdu.after (s o : ActionResponseReliablePdu) : ActionResponseReliablePdu :=
  { s with
    toSimulationManagementWithReliabilityFamilyPdu := SimulationManagementWithReliabilityFamilyPdu.after s.toSimulationManagementWithReliabilityFamilyPdu o.toSimulationManagementWithReliabilityFamilyPdu,
    requestID := o.requestID,
    responseStatus := o.responseStatus,
    _datums := DatumSpecification.after s._datums o._datums }

/-- Every field of `o` fits its wire type (/repo/opendis/dis7.py:7337-7342,7344-7349). -/
def ActionResponseReliablePdu.WireOk (o : ActionResponseReliablePdu) : Prop :=
  SimulationManagementWithReliabilityFamilyPdu.WireOk o.toSimulationManagementWithReliabilityFamilyPdu ∧
  U32 o.requestID ∧
  U32 o.responseStatus ∧
  DatumSpecification.WireOk o._datums

/-- `o` is in the form a fresh `ActionResponseReliablePdu` takes after parsing: singles exact, arrays of the fixed length,
attributes that are not on the wire at their initial value (/repo/opendis/dis7.py:7337-7342,7344-7349). -/
def ActionResponseReliablePdu.Canon (o : ActionResponseReliablePdu) : Prop :=
  DatumSpecification.Canon o._datums

/-- No single-precision field of `o` is a NaN (/repo/opendis/dis7.py:7337-7342,7344-7349). -/
def ActionResponseReliablePdu.NoNaN (o : ActionResponseReliablePdu) : Prop :=
  True

/-- Number of bytes `serialize` writes (/repo/opendis/dis7.py:7337-7342,7344-7349). -/
def ActionResponseReliablePdu.wireSize (o : ActionResponseReliablePdu) : Nat := 40 + 8 * o._datums.fixedDatumRecords.length + (o._datums.variableDatumRecords.map VariableDatum.wireSize).sum

/-- The object `s` after it parsed what `o` serialized: fields of `o`, singles rounded, list elements
appended (/repo/opendis/dis7.py:7379-7387,7389-7397). -/
def IsPartOfPdu.after (s o : IsPartOfPdu) : IsPartOfPdu :=
  { s with
    toEntityManagementFamilyPdu := EntityManagementFamilyPdu.after s.toEntityManagementFamilyPdu o.toEntityManagementFamilyPdu,
    orginatingEntityID := EntityIdentifier.after s.orginatingEntityID o.orginatingEntityID,
    receivingEntityID := EntityIdentifier.after s.receivingEntityID o.receivingEntityID,
    relationship := Relationship.after s.relationship o.relationship,
    partLocation := Vector3Float.after s.partLocation o.partLocation,
    namedLocationID := NamedLocationIdentification.after s.namedLocationID o.namedLocationID,
    partEntityType := EntityType.after s.partEntityType o.partEntityType }

/-- Every field of `o` fits its wire type (/repo/opendis/dis7.py:7379-7387,7389-7397). -/
def IsPartOfPdu.WireOk (o : IsPartOfPdu) : Prop :=
  EntityManagementFamilyPdu.WireOk o.toEntityManagementFamilyPdu ∧
  EntityIdentifier.WireOk o.orginatingEntityID ∧
  EntityIdentifier.WireOk o.receivingEntityID ∧
  Relationship.WireOk o.relationship ∧
  Vector3Float.WireOk o.partLocation ∧
  NamedLocationIdentification.WireOk o.namedLocationID ∧
  EntityType.WireOk o.partEntityType

/-- `o` is in the form a fresh `IsPartOfPdu` takes after parsing: singles exact, arrays of the fixed length,
attributes that are not on the wire at their initial value (/repo/opendis/dis7.py:7379-7387,7389-7397). -/
def IsPartOfPdu.Canon (o : IsPartOfPdu) : Prop :=
  Vector3Float.Canon o.partLocation

/-- No single-precision field of `o` is a NaN (/repo/opendis/dis7.py:7379-7387,7389-7397). -/
def IsPartOfPdu.NoNaN (o : IsPartOfPdu) : Prop :=
  Vector3Float.NoNaN o.partLocation

/-- Number of bytes `serialize` writes (/repo/opendis/dis7.py:7379-7387,7389-7397). -/
def IsPartOfPdu.wireSize (o : IsPartOfPdu) : Nat := 52

/-- The object `s` after it parsed what `o` serialized: fields of `o`, singles rounded, list elements
appended (/repo/opendis/dis7.py:7471-7498,7500-7537). -/
def AggregateStatePdu.after (s o : AggregateStatePdu) : AggregateStatePdu :=
  { s with
    toEntityManagementFamilyPdu := EntityManagementFamilyPdu.after s.toEntityManagementFamilyPdu o.toEntityManagementFamilyPdu,
    aggregateID := AggregateIdentifier.after s.aggregateID o.aggregateID,
    forceID := o.forceID,
    aggregateState := o.aggregateState,
    aggregateType := AggregateType.after s.aggregateType o.aggregateType,
    formation := o.formation,
    aggregateMarking := AggregateMarking.after s.aggregateMarking o.aggregateMarking,
    dimensions := Vector3Float.after s.dimensions o.dimensions,
    orientation := EulerAngles.after s.orientation o.orientation,
    centerOfMass := Vector3Float.after s.centerOfMass o.centerOfMass,
    velocity := WorldCoordinates.after s.velocity o.velocity,
    aggregateIDs := s.aggregateIDs ++ o.aggregateIDs.map (AggregateIdentifier.after AggregateIdentifier.init),
    entityIDs := s.entityIDs ++ o.entityIDs.map (EntityIdentifier.after EntityIdentifier.init),
    silentAggregateSystems := s.silentAggregateSystems ++ o.silentAggregateSystems.map (SilentAggregateSystem.after SilentAggregateSystem.init),
    silentEntitySystems := s.silentEntitySystems ++ o.silentEntitySystems.map (SilentEntitySystem.after SilentEntitySystem.init),
    variableDatumRecords := s.variableDatumRecords ++ o.variableDatumRecords.map (VariableDatum.after VariableDatum.init) }

/-- Every field of `o` fits its wire type (/repo/opendis/dis7.py:7471-7498,7500-7537). -/
def AggregateStatePdu.WireOk (o : AggregateStatePdu) : Prop :=
  EntityManagementFamilyPdu.WireOk o.toEntityManagementFamilyPdu ∧
  AggregateIdentifier.WireOk o.aggregateID ∧
  U8 o.forceID ∧
  U8 o.aggregateState ∧
  AggregateType.WireOk o.aggregateType ∧
  U32 o.formation ∧
  AggregateMarking.WireOk o.aggregateMarking ∧
  Vector3Float.WireOk o.dimensions ∧
  EulerAngles.WireOk o.orientation ∧
  Vector3Float.WireOk o.centerOfMass ∧
  U16 ((o.aggregateIDs.length : Int)) ∧
  U16 ((o.entityIDs.length : Int)) ∧
  U16 ((o.silentAggregateSystems.length : Int)) ∧
  U16 ((o.silentEntitySystems.length : Int)) ∧
  (∀ x ∈ o.aggregateIDs, AggregateIdentifier.WireOk x) ∧
  (∀ x ∈ o.entityIDs, EntityIdentifier.WireOk x) ∧
  (∀ x ∈ o.silentAggregateSystems, SilentAggregateSystem.WireOk x) ∧
  (∀ x ∈ o.silentEntitySystems, SilentEntitySystem.WireOk x) ∧
  U32 ((o.variableDatumRecords.length : Int)) ∧
  (∀ x ∈ o.variableDatumRecords, VariableDatum.WireOk x)

/-- `o` is in the form a fresh `AggregateStatePdu` takes after parsing: singles exact, arrays of the fixed length,
attributes that are not on the wire at their initial value (/repo/opendis/dis7.py:7471-7498,7500-7537). -/
def AggregateStatePdu.Canon (o : AggregateStatePdu) : Prop :=
  AggregateMarking.Canon o.aggregateMarking ∧
  Vector3Float.Canon o.dimensions ∧
  EulerAngles.Canon o.orientation ∧
  Vector3Float.Canon o.centerOfMass ∧
  (∀ x ∈ o.silentAggregateSystems, SilentAggregateSystem.Canon x) ∧
  (∀ x ∈ o.silentEntitySystems, SilentEntitySystem.Canon x) ∧
  ∀ x ∈ o.variableDatumRecords, VariableDatum.Canon x

/-- No single-precision field of `o` is a NaN (/repo/opendis/dis7.py:7471-7498,7500-7537). -/
def AggregateStatePdu.NoNaN (o : AggregateStatePdu) : Prop :=
  Vector3Float.NoNaN o.dimensions ∧
  EulerAngles.NoNaN o.orientation ∧
  Vector3Float.NoNaN o.centerOfMass

/-- `o` avoids the values that `serialize` does not reproduce (/repo/opendis/dis7.py:7471-7498,7500-7537). -/
def AggregateStatePdu.Live (o : AggregateStatePdu) : Prop :=
  ∀ x ∈ o.silentAggregateSystems, SilentAggregateSystem.Live x

/-- Number of bytes `serialize` writes (/repo/opendis/dis7.py:7471-7498,7500-7537). -/
def AggregateStatePdu.wireSize (o : AggregateStatePdu) : Nat := 136 + 6 * o.aggregateIDs.length + 6 * o.entityIDs.length + 10 * o.silentAggregateSystems.length + 12 * o.silentEntitySystems.length + (o.variableDatumRecords.map VariableDatum.wireSize).sum

end Dis
