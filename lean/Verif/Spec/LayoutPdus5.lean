import Verif.Model.Pdus5
import Verif.Spec.LayoutPdus4

/-!
# Wire layouts of the classes of `Verif.Model.Pdus5`

Generated by `tools/genlayout.py`.
-/

set_option linter.unusedVariables false

namespace Dis

/-- Layout of `FirePdu` on the wire (/repo/opendis/dis7.py:6713-6722). -/
def FirePdu.wire (o : FirePdu) : List Slot :=
  [WarfareFamilyPdu.wire o.toWarfareFamilyPdu,
   EntityIdentifier.wire o.munitionExpendableID,
   EventIdentifier.wire o.eventID,
   [.u32 o.fireMissionIndex],
   WorldCoordinates.wire o.location,
   MunitionDescriptor.wire o.descriptor,
   Vector3Float.wire o.velocity,
   [.f32 o.range]].flatten

/-- Layout of `ReceiverPdu` on the wire (/repo/opendis/dis7.py:6759-6766). -/
def ReceiverPdu.wire (o : ReceiverPdu) : List Slot :=
  [RadioCommunicationsFamilyPdu.wire o.toRadioCommunicationsFamilyPdu,
   [.u16 o.receiverState],
   [.u16 o.padding1],
   [.f32 o.receivedPower],
   EntityIdentifier.wire o.transmitterEntityID,
   [.u16 o.transmitterRadioId]].flatten

/-- Layout of `UaPdu` on the wire (/repo/opendis/dis7.py:6828-6845). -/
def UaPdu.wire (o : UaPdu) : List Slot :=
  [DistributedEmissionsFamilyPdu.wire o.toDistributedEmissionsFamilyPdu,
   EntityIdentifier.wire o.emittingEntityID,
   EventIdentifier.wire o.eventID,
   [.s8 o.stateChangeIndicator],
   [.s8 o.pad],
   [.u16 o.passiveParameterIndex],
   [.u8 o.propulsionPlantConfiguration],
   [.u8 (o.shaftRPMs.length : Int)],
   [.u8 (o.apaData.length : Int)],
   [.u8 (o.emitterSystems.length : Int)],
   o.shaftRPMs.map fun _ => .fail .attributeError,
   o.apaData.map fun _ => .fail .attributeError,
   o.emitterSystems.map fun _ => .fail .attributeError].flatten

/-- Layout of `SignalPdu` on the wire (/repo/opendis/dis7.py:6990-7001). -/
def SignalPdu.wire (o : SignalPdu) : List Slot :=
  [RadioCommunicationsFamilyPdu.wire o.toRadioCommunicationsFamilyPdu,
   EntityIdentifier.wire o.entityID,
   [.u16 o.radioID],
   [.u16 o.encodingScheme],
   [.u16 o.tdlType],
   [.u32 o.sampleRate],
   [.u16 ((o.data.length : Int) * 8)],
   [.u16 o.samples],
   o.data.map Slot.u8].flatten

/-- Layout of `RemoveEntityReliablePdu` on the wire (/repo/opendis/dis7.py:7035-7041). -/
def RemoveEntityReliablePdu.wire (o : RemoveEntityReliablePdu) : List Slot :=
  [SimulationManagementWithReliabilityFamilyPdu.wire o.toSimulationManagementWithReliabilityFamilyPdu,
   [.u8 o.requiredReliabilityService],
   [.u16 o.pad1],
   [.u8 o.pad2],
   [.u32 o.requestID]].flatten

/-- Layout of `SeesPdu` on the wire (/repo/opendis/dis7.py:7082-7097). -/
def SeesPdu.wire (o : SeesPdu) : List Slot :=
  [DistributedEmissionsFamilyPdu.wire o.toDistributedEmissionsFamilyPdu,
   EntityIdentifier.wire o.orginatingEntityID,
   [.u16 o.infraredSignatureRepresentationIndex],
   [.u16 o.acousticSignatureRepresentationIndex],
   [.u16 o.radarCrossSectionSignatureRepresentationIndex],
   [.u16 (o.propulsionSystemData.length : Int)],
   [.u16 (o.vectoringSystemData.length : Int)],
   o.propulsionSystemData.flatMap PropulsionSystemData.wire,
   o.vectoringSystemData.flatMap VectoringNozzleSystem.wire].flatten

/-- Layout of `CreateEntityReliablePdu` on the wire (/repo/opendis/dis7.py:7139-7145). -/
def CreateEntityReliablePdu.wire (o : CreateEntityReliablePdu) : List Slot :=
  [SimulationManagementWithReliabilityFamilyPdu.wire o.toSimulationManagementWithReliabilityFamilyPdu,
   [.u8 o.requiredReliabilityService],
   [.u16 o.pad1],
   [.u8 o.pad2],
   [.u32 o.requestID]].flatten

/-- Layout of `StopFreezeReliablePdu` on the wire (/repo/opendis/dis7.py:7181-7189). -/
def StopFreezeReliablePdu.wire (o : StopFreezeReliablePdu) : List Slot :=
  [SimulationManagementWithReliabilityFamilyPdu.wire o.toSimulationManagementWithReliabilityFamilyPdu,
   ClockTime.wire o.realWorldTime,
   [.u8 o.reason],
   [.u8 o.frozenBehavior],
   [.u8 o.requiredReliablityService],
   [.u8 o.pad1],
   [.u32 o.requestID]].flatten

/-- Layout of `EventReportReliablePdu` on the wire (/repo/opendis/dis7.py:7238-7243). -/
def EventReportReliablePdu.wire (o : EventReportReliablePdu) : List Slot :=
  [SimulationManagementWithReliabilityFamilyPdu.wire o.toSimulationManagementWithReliabilityFamilyPdu,
   [.u16 o.eventType],
   [.u32 o.pad1],
   DatumSpecification.wire o._datums].flatten

/-- Layout of `MinefieldResponseNackPdu` on the wire (/repo/opendis/dis7.py:7278-7286). -/
def MinefieldResponseNackPdu.wire (o : MinefieldResponseNackPdu) : List Slot :=
  [MinefieldFamilyPdu.wire o.toMinefieldFamilyPdu,
   EntityIdentifier.wire o.minefieldID,
   EntityIdentifier.wire o.requestingEntityID,
   [.u8 o.requestID],
   [.u8 (o.missingPduSequenceNumbers.length : Int)],
   o.missingPduSequenceNumbers.map fun _ => .fail .attributeError].flatten

/-- Layout of `ActionResponseReliablePdu` on the wire (/repo/opendis/dis7.py:7337-7342). -/
def ActionResponseReliablePdu.wire (o : ActionResponseReliablePdu) : List Slot :=
  [SimulationManagementWithReliabilityFamilyPdu.wire o.toSimulationManagementWithReliabilityFamilyPdu,
   [.u32 o.requestID],
   [.u32 o.responseStatus],
   DatumSpecification.wire o._datums].flatten

/-- Layout of `IsPartOfPdu` on the wire (/repo/opendis/dis7.py:7379-7387). -/
def IsPartOfPdu.wire (o : IsPartOfPdu) : List Slot :=
  [EntityManagementFamilyPdu.wire o.toEntityManagementFamilyPdu,
   EntityIdentifier.wire o.orginatingEntityID,
   EntityIdentifier.wire o.receivingEntityID,
   Relationship.wire o.relationship,
   Vector3Float.wire o.partLocation,
   NamedLocationIdentification.wire o.namedLocationID,
   EntityType.wire o.partEntityType].flatten

/-- Layout of `AggregateStatePdu` on the wire (/repo/opendis/dis7.py:7471-7498). -/
def AggregateStatePdu.wire (o : AggregateStatePdu) : List Slot :=
  [EntityManagementFamilyPdu.wire o.toEntityManagementFamilyPdu,
   AggregateIdentifier.wire o.aggregateID,
   [.u8 o.forceID],
   [.u8 o.aggregateState],
   AggregateType.wire o.aggregateType,
   [.u32 o.formation],
   AggregateMarking.wire o.aggregateMarking,
   Vector3Float.wire o.dimensions,
   EulerAngles.wire o.orientation,
   Vector3Float.wire o.centerOfMass,
   WorldCoordinates.wire o.velocity,
   [.u16 (o.aggregateIDs.length : Int)],
   [.u16 (o.entityIDs.length : Int)],
   [.u16 (o.silentAggregateSystems.length : Int)],
   [.u16 (o.silentEntitySystems.length : Int)],
   o.aggregateIDs.flatMap AggregateIdentifier.wire,
   o.entityIDs.flatMap EntityIdentifier.wire,
   o.silentAggregateSystems.flatMap SilentAggregateSystem.wire,
   o.silentEntitySystems.flatMap SilentEntitySystem.wire,
   [.u32 (o.variableDatumRecords.length : Int)],
   o.variableDatumRecords.flatMap VariableDatum.wire].flatten

end Dis
